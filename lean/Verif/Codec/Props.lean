import Verif.Codec.Lemmas2
/-
Properties C06-C12 and C36: fixed-width codecs, key parsing, and the contract's unpacking.
-/
namespace Verif.Codec
open Verif Spec

theorem IsPacking.unique {w : Nat} {vs : List Nat} {y z : Bytes} (hy : IsPacking w vs y) (hz : IsPacking w vs z) : y = z := by
  obtain ⟨b1, l1, k1, e1⟩ := hy
  obtain ⟨b2, l2, k2, e2⟩ := hz
  apply bytesBits_inj b1 b2
  rw [e1, e2]
  have h1 := congrArg List.length e1
  have h2 := congrArg List.length e2
  simp [zeros] at h1 h2
  congr 2; omega

/-! ### modq (14-bit residues) -/

/-- **Exact acceptance of `modq_encode`** (C06, C08): on a list of exactly `n` coefficients it returns `y` iff
all coefficients are in `[0,q)` and `y` is their 14-bit packing. -/
theorem modqEncode_ok_iff (x : List Int) (y : Bytes) :
    modqEncode x x.length = .ok y ↔ (∀ c ∈ x, 0 ≤ c ∧ c < 12289) ∧ IsPacking 14 (x.map Int.toNat) y := by
  have hp := packedLen_bounds x.length 14
  constructor
  · intro h
    by_cases hx : ∀ c ∈ x, 0 ≤ c ∧ c < 12289
    · refine ⟨hx, ?_⟩
      obtain ⟨y', a, b, c, k, d⟩ := modqEncLoop_ok x hx [] 0 0 0 _ (packedLen x.length 14) (encInv_init _) (by decide) (by simp; omega)
      rw [modqEncode] at h
      have : y' = y := by
        have := a.symm.trans h
        simpa using this
      subst this
      exact ⟨b, by simpa using c, k, by simpa using d⟩
    · exfalso
      have hx' : ∃ c ∈ x, ¬ (0 ≤ c ∧ c < 12289) := by
        false_or_by_contra; rename_i hc; apply hx; intro c hm; false_or_by_contra; rename_i h2; exact hc ⟨c, hm, h2⟩
      have := modqEncLoop_bad x hx' [] 0 0 0 _ (packedLen x.length 14) (encInv_init _) (by simp; omega)
      rw [modqEncode] at h
      have := this.symm.trans h
      cases this
  · rintro ⟨hx, hy⟩
    obtain ⟨y', a, b, c, k, d⟩ := modqEncLoop_ok x hx [] 0 0 0 _ (packedLen x.length 14) (encInv_init _) (by decide) (by simp; omega)
    have : IsPacking 14 (x.map Int.toNat) y' := ⟨b, by simpa using c, k, by simpa using d⟩
    rw [IsPacking.unique hy this]
    exact a

/-- **C08**: the only failure is ValueError, and it happens exactly when a coefficient is out of range. -/
theorem modqEncode_error_iff (x : List Int) (e : Err) :
    modqEncode x x.length = .error e ↔ e = .valueError ∧ ∃ c ∈ x, c < 0 ∨ 12289 ≤ c := by
  have hp := packedLen_bounds x.length 14
  by_cases hx : ∃ c ∈ x, ¬ (0 ≤ c ∧ c < 12289)
  · have := modqEncLoop_bad x hx [] 0 0 0 _ (packedLen x.length 14) (encInv_init _) (by simp; omega)
    have h : modqEncode x x.length = .error .valueError := this
    rw [h]
    constructor
    · intro h; cases h
      obtain ⟨c, hm, hc⟩ := hx
      exact ⟨rfl, c, hm, by omega⟩
    · rintro ⟨rfl, _⟩; rfl
  · have hx' : ∀ c ∈ x, 0 ≤ c ∧ c < 12289 := by
      intro c hm; false_or_by_contra; rename_i h2; exact hx ⟨c, hm, h2⟩
    obtain ⟨y', a, b, c, k, d⟩ := modqEncLoop_ok x hx' [] 0 0 0 _ (packedLen x.length 14) (encInv_init _) (by decide) (by simp; omega)
    have h : modqEncode x x.length = .ok y' := a
    rw [h]
    constructor
    · intro h; cases h
    · rintro ⟨_, c, hm, hc⟩; have := hx' c hm; omega

/-- A list longer than `n` never encodes successfully. -/
theorem modqEncode_too_long (x : List Int) (n : Nat) (h : n < x.length) (y : Bytes) : modqEncode x n ≠ .ok y := by
  have hp := packedLen_bounds n 14
  exact modqEncLoop_long x [] 0 0 0 _ (packedLen n 14) (encInv_init _) (by simp) (by simp; omega) y

/-- **Exact acceptance of `modq_decode`** (C06, C07): it returns `x` iff there is enough data, `x` is a list of `n` residues
below `q`, and the first `⌈14n/8⌉` bytes of the data are exactly the packing of `x`. -/
theorem modqDecode_ok_iff (data : Bytes) (hd : IsBytes data) (n : Nat) (x : List Nat) :
    modqDecode data n = .ok x ↔
      packedLen n 14 ≤ data.length ∧ x.length = n ∧ (∀ c ∈ x, c < 12289) ∧ IsPacking 14 x (data.take (packedLen n 14)) := by
  rw [modqDecode_eq _ _ hd, finish_ok_iff]
  by_cases hl : packedLen n 14 ≤ data.length
  · rw [bm_accepts modq_fieldCode (by decide) n data hd hl x]
    simp [hl]
  · have := packedLen_bounds n 14
    constructor
    · rintro ⟨r, d, h, _⟩
      have := (bm_sound n 14 modqPost [] [] data (by simp) r x d h).2
      simp at this; omega
    · rintro ⟨h, _⟩; omega

/-- `modq_decode` fails only with ValueError (never IndexError). -/
theorem modqDecode_error (data : Bytes) (hd : IsBytes data) (n : Nat) (e : Err) (h : modqDecode data n = .error e) :
    e = .valueError := by
  rw [modqDecode_eq _ _ hd] at h
  exact finish_error _ _ h

/-- **C06** round trip, also in front of any further bytes. -/
theorem modqDecode_encode (x : List Nat) (hx : ∀ c ∈ x, c < 12289) (rest : Bytes) (hr : IsBytes rest) :
    ∃ y, modqEncode (x.map Int.ofNat) x.length = .ok y ∧ y.length = packedLen x.length 14 ∧
      modqDecode (y ++ rest) x.length = .ok x := by
  have hx' : ∀ c ∈ x.map Int.ofNat, 0 ≤ c ∧ c < 12289 := by
    intro c hc; rw [List.mem_map] at hc; obtain ⟨d, hd, rfl⟩ := hc; have := hx d hd; simp; omega
  cases h : modqEncode (x.map Int.ofNat) (x.map Int.ofNat).length with
  | error e =>
    obtain ⟨_, c, hc, hc'⟩ := (modqEncode_error_iff _ e).1 h
    have := hx' c hc; omega
  | ok y =>
    obtain ⟨_, hpk⟩ := (modqEncode_ok_iff _ _).1 h
    have e : (x.map Int.ofNat).map Int.toNat = x := by simp [Function.comp_def]
    rw [e] at hpk
    rw [List.length_map] at h
    have hl := hpk.2.1
    refine ⟨y, h, hl, ?_⟩
    rw [modqDecode_ok_iff]
    · refine ⟨by simp; omega, rfl, hx, ?_⟩
      rw [← hl, List.take_left]; exact hpk
    · intro b hb
      rcases List.mem_append.1 hb with hb | hb
      · exact hpk.1 b hb
      · exact hr b hb

example : modqEncode [12288, 0, 5] 3 = .ok [192, 0, 0, 0, 1, 64] ∧ modqDecode [192, 0, 0, 0, 1, 64, 7] 3 = .ok [12288, 0, 5] := by
  decide +kernel

/-- **C07**: an accepted string is the unique encoding of its value. -/
theorem modqDecode_canonical (data : Bytes) (hd : IsBytes data) (n : Nat) (x : List Nat)
    (h : modqDecode data n = .ok x) :
    x.length = n ∧ (∀ c ∈ x, c < 12289) ∧ modqEncode (x.map Int.ofNat) n = .ok (data.take (packedLen n 14)) := by
  obtain ⟨h1, h2, h3, h4⟩ := (modqDecode_ok_iff data hd n x).1 h
  refine ⟨h2, h3, ?_⟩
  have e : (x.map Int.ofNat).map Int.toNat = x := by simp [Function.comp_def]
  have := (modqEncode_ok_iff (x.map Int.ofNat) (data.take (packedLen n 14))).2
    ⟨by intro c hc; rw [List.mem_map] at hc; obtain ⟨d, hd, rfl⟩ := hc; have := h3 d hd; simp; omega, by rw [e]; exact h4⟩
  simpa [h2] using this

/-- **C07**, as injectivity: two accepted strings of the exact length with the same value are equal. -/
theorem modqDecode_injective (a b : Bytes) (ha : IsBytes a) (hb : IsBytes b) (n : Nat) (x : List Nat)
    (la : a.length = packedLen n 14) (lb : b.length = packedLen n 14)
    (h1 : modqDecode a n = .ok x) (h2 : modqDecode b n = .ok x) : a = b := by
  have e1 := (modqDecode_canonical a ha n x h1).2.2
  have e2 := (modqDecode_canonical b hb n x h2).2.2
  rw [← la, List.take_length] at e1
  rw [← lb, List.take_length] at e2
  rw [e1] at e2
  simpa using e2

example : modqDecode [192, 0, 0, 0, 1, 64] 3 = .ok [12288, 0, 5] ∧ modqDecode [192, 0, 0, 0, 1, 65] 3 = .error .valueError ∧
    modqDecode [192, 4, 0, 0, 1, 64] 3 = .error .valueError := by decide +kernel

/-! ### trim_i8 (signed fields) -/

/-- **Exact acceptance of `trim_i8_encode`** (C09). -/
theorem trimEncode_ok_iff (x : List Int) (bits : Nat) (hb : 0 < bits) (y : Bytes) :
    trimEncode x x.length bits = .ok y ↔ (∀ c ∈ x, InRange bits c) ∧ IsPacking bits (x.map (twos bits)) y := by
  have hp := packedLen_bounds x.length bits
  unfold trimEncode
  rw [if_neg (by omega)]
  constructor
  · intro h
    by_cases hx : ∀ c ∈ x, InRange bits c
    · refine ⟨hx, ?_⟩
      obtain ⟨y', a, b, c, k, d⟩ := trimEncLoop_ok bits x hx [] 0 0 0 _ (packedLen x.length bits) (encInv_init _) (by decide) (by simp; omega)
      have : y' = y := by
        have := a.symm.trans h
        simpa using this
      subst this
      exact ⟨b, by simpa using c, k, by simpa using d⟩
    · exfalso
      have hx' : ∃ c ∈ x, ¬ InRange bits c := by
        false_or_by_contra; rename_i hc; apply hx; intro c hm; false_or_by_contra; rename_i h2; exact hc ⟨c, hm, h2⟩
      have := trimEncLoop_bad bits x hx' [] 0 0 0 _ (packedLen x.length bits) (encInv_init _) (by simp; omega)
      have := this.symm.trans h
      cases this
  · rintro ⟨hx, hy⟩
    obtain ⟨y', a, b, c, k, d⟩ := trimEncLoop_ok bits x hx [] 0 0 0 _ (packedLen x.length bits) (encInv_init _) (by decide) (by simp; omega)
    have : IsPacking bits (x.map (twos bits)) y' := ⟨b, by simpa using c, k, by simpa using d⟩
    rw [IsPacking.unique hy this]
    exact a

/-- **Exact acceptance of `trim_i8_decode`** (C09, C10): in particular the value `-2^(bits-1)` is never returned. -/
theorem trimDecode_ok_iff (data : Bytes) (hd : IsBytes data) (n bits : Nat) (hb : 0 < bits) (x : List Int) :
    trimDecode data n bits = .ok x ↔
      packedLen n bits ≤ data.length ∧ x.length = n ∧ (∀ c ∈ x, InRange bits c) ∧
        IsPacking bits (x.map (twos bits)) (data.take (packedLen n bits)) := by
  rw [trimDecode_eq _ _ _ hb hd, finish_ok_iff]
  by_cases hl : packedLen n bits ≤ data.length
  · rw [bm_accepts (trim_fieldCode bits hb) hb n data hd hl x]
    simp [hl]
  · have := packedLen_bounds n bits
    constructor
    · rintro ⟨r, d, h, _⟩
      have := (bm_sound n bits _ [] [] data (by simp) r x d h).2
      simp at this; omega
    · rintro ⟨h, _⟩; omega

/-- **C09** round trip for every width, length and value in the symmetric range. -/
theorem trimDecode_encode (x : List Int) (bits : Nat) (hb : 0 < bits) (hx : ∀ c ∈ x, InRange bits c) (rest : Bytes) (hr : IsBytes rest) :
    ∃ y, trimEncode x x.length bits = .ok y ∧ y.length = packedLen x.length bits ∧
      trimDecode (y ++ rest) x.length bits = .ok x := by
  have hp := packedLen_bounds x.length bits
  obtain ⟨y', a, b, c, k, d⟩ := trimEncLoop_ok bits x hx [] 0 0 0 _ (packedLen x.length bits) (encInv_init _) (by decide) (by simp; omega)
  have hpk : IsPacking bits (x.map (twos bits)) y' := ⟨b, by simpa using c, k, by simpa using d⟩
  refine ⟨y', (trimEncode_ok_iff x bits hb y').2 ⟨hx, hpk⟩, c, ?_⟩
  rw [trimDecode_ok_iff _ _ _ _ hb]
  · refine ⟨by simp; omega, rfl, hx, ?_⟩
    rw [← c, List.take_left]; exact hpk
  · intro v hv
    rcases List.mem_append.1 hv with hv | hv
    · exact b v hv
    · exact hr v hv

/-- **C10**: an accepted string is the unique encoding of its value, and its values avoid `-2^(bits-1)`. -/
theorem trimDecode_canonical (data : Bytes) (hd : IsBytes data) (n bits : Nat) (hb : 0 < bits) (x : List Int)
    (h : trimDecode data n bits = .ok x) :
    x.length = n ∧ (∀ c ∈ x, InRange bits c) ∧ trimEncode x n bits = .ok (data.take (packedLen n bits)) := by
  obtain ⟨h1, h2, h3, h4⟩ := (trimDecode_ok_iff data hd n bits hb x).1 h
  refine ⟨h2, h3, ?_⟩
  have := (trimEncode_ok_iff x bits hb (data.take (packedLen n bits))).2 ⟨h3, h4⟩
  rwa [h2] at this

/-- out-of-range coefficients are refused with ValueError -/
theorem trimEncode_error (x : List Int) (bits : Nat) (hb : 0 < bits) (hx : ∃ c ∈ x, ¬ InRange bits c) :
    trimEncode x x.length bits = .error .valueError := by
  have hp := packedLen_bounds x.length bits
  unfold trimEncode
  rw [if_neg (by omega)]
  exact trimEncLoop_bad bits x hx [] 0 0 0 _ (packedLen x.length bits) (encInv_init _) (by simp; omega)

example : trimEncode [-31, 31, 0, -1] 4 6 = .ok [0x85, 0xF0, 0x3F] ∧ trimDecode [0x85, 0xF0, 0x3F] 4 6 = .ok [-31, 31, 0, -1]
    ∧ trimDecode [0x80, 0, 0] 4 6 = .error .valueError := by
  decide +kernel

/-! ### public keys -/

/-- **C11, exact acceptance of `PublicKey.from_bytes`.** -/
theorem fromBytes_ok_iff (pk : Bytes) (hd : IsBytes pk) (n : Nat) (h : List Nat) :
    fromBytes pk = .ok (n, h) ↔
      (pk.length = 897 ∨ pk.length = 1792) ∧ ∃ data,
        ((n = 512 ∧ pk = 0x09 :: data) ∨ (n = 1024 ∧ pk = 0x0A :: data)) ∧
        h.length = n ∧ (∀ c ∈ h, c < 12289) ∧ fieldBits 14 h <+: bytesBits data := by
  have key : ∀ (m : Nat) (data : Bytes), IsBytes data → ∀ h, fromBytesLoop m 0 0 [] data = .ok h ↔
      (h.length = m ∧ (∀ c ∈ h, c < 12289) ∧ fieldBits 14 h <+: bytesBits data) := by
    intro m data hd h
    have e := fromBytesLoop_eq m 0 [] [] data hd accIs_nil (by simp) (by simp)
    rw [show ([] : List Bool).length = 0 from rfl] at e
    have hp := bm_prefix modq_fieldCode (by decide) m data h
    rw [List.map_id] at hp
    rw [e, ← hp]
    cases bm m 14 modqPost [] [] data with
    | none => simp
    | some p => obtain ⟨r, y, d⟩ := p; simp
  unfold fromBytes
  by_cases hl : pk.length ≠ 897 ∧ pk.length ≠ 1792
  · rw [if_pos hl]
    constructor
    · intro h; cases h
    · rintro ⟨h, _⟩; omega
  · rw [if_neg hl]
    have hl' : pk.length = 897 ∨ pk.length = 1792 := by omega
    cases pk with
    | nil => simp at hl'
    | cons hd0 data =>
      have hdd : IsBytes data := fun c hc => hd c (by simp [hc])
      simp only [hl', true_and]
      by_cases h9 : hd0 = 0x09
      · subst h9
        rw [if_pos rfl]
        constructor
        · intro hh
          cases hf : fromBytesLoop 512 0 0 [] data with
          | error e => rw [hf] at hh; cases hh
          | ok y =>
            rw [hf] at hh
            simp only [Except.map, Except.ok.injEq, Prod.mk.injEq] at hh
            obtain ⟨rfl, rfl⟩ := hh
            exact ⟨data, Or.inl ⟨rfl, rfl⟩, (key 512 data hdd y).1 hf⟩
        · rintro ⟨d, (⟨rfl, he⟩ | ⟨_, he⟩), h3⟩
          · have : d = data := by simpa using he.symm
            subst this
            rw [(key 512 d hdd h).2 h3]; rfl
          · simp at he
      · rw [if_neg h9]
        by_cases h10 : hd0 = 0x0A
        · subst h10
          rw [if_pos rfl]
          constructor
          · intro hh
            cases hf : fromBytesLoop 1024 0 0 [] data with
            | error e => rw [hf] at hh; cases hh
            | ok y =>
              rw [hf] at hh
              simp only [Except.map, Except.ok.injEq, Prod.mk.injEq] at hh
              obtain ⟨rfl, rfl⟩ := hh
              exact ⟨data, Or.inr ⟨rfl, rfl⟩, (key 1024 data hdd y).1 hf⟩
          · rintro ⟨d, (⟨_, he⟩ | ⟨rfl, he⟩), h3⟩
            · simp at he
            · have : d = data := by simpa using he.symm
              subst this
              rw [(key 1024 d hdd h).2 h3]; rfl
        · rw [if_neg h10]
          constructor
          · intro h; cases h
          · rintro ⟨d, (⟨_, he⟩ | ⟨_, he⟩), _⟩
            · simp at he; exact absurd he.1 h9
            · simp at he; exact absurd he.1 h10

/-- **C11 for Falcon-512**: the NIST encoding (header 0x09 and the 14-bit packing) of every key is accepted and read back. -/
theorem fromBytes_roundtrip_512 (h : List Nat) (hl : h.length = 512) (hq : ∀ c ∈ h, c < 12289) :
    ∃ y, modqEncode (h.map Int.ofNat) 512 = .ok y ∧ fromBytes (0x09 :: y) = .ok (512, h) := by
  obtain ⟨y, h1, h2, h3⟩ := modqDecode_encode h hq [] (by intro b hb; simp at hb)
  rw [hl] at h1 h2 h3
  have hpk := (modqEncode_ok_iff (h.map Int.ofNat) y).1 (by simpa [hl] using h1)
  have e : (h.map Int.ofNat).map Int.toNat = h := by simp [Function.comp_def]
  rw [e] at hpk
  refine ⟨y, h1, ?_⟩
  rw [fromBytes_ok_iff]
  · refine ⟨Or.inl ?_, y, Or.inl ⟨rfl, rfl⟩, hl, hq, ?_⟩
    · simp [h2, packedLen]
    · obtain ⟨k, hk⟩ := hpk.2.2.2
      exact ⟨_, hk.symm⟩
  · intro b hb
    rcases List.mem_cons.1 hb with rfl | hb
    · decide
    · exact hpk.2.1 b hb

/-- **C11, negation for Falcon-1024**: no byte string at all is accepted as a Falcon-1024 key
(the correct length is 1793, the code requires 897 or 1792). -/
theorem fromBytes_never_1024 (pk : Bytes) (hd : IsBytes pk) (h : List Nat) : fromBytes pk ≠ .ok (1024, h) := by
  intro hh
  obtain ⟨hl, data, h1, h2, _, t, ht⟩ := (fromBytes_ok_iff pk hd 1024 h).1 hh
  have h3 : pk.length = data.length + 1 := by
    rcases h1 with ⟨_, rfl⟩ | ⟨_, rfl⟩ <;> simp
  have := congrArg List.length ht
  simp [h2] at this
  omega

/-- in particular the NIST encoding of every Falcon-1024 key is refused -/
theorem fromBytes_rejects_nist_1024 (h : List Nat) (hl : h.length = 1024) (y : Bytes)
    (hy : modqEncode (h.map Int.ofNat) 1024 = .ok y) : fromBytes (0x0A :: y) = .error .valueError := by
  have hpk := (modqEncode_ok_iff (h.map Int.ofNat) y).1 (by simpa [hl] using hy)
  have h1 : y.length = 1792 := by rw [hpk.2.2.1]; simp [hl, packedLen]
  unfold fromBytes
  rw [if_pos (by simp [h1])]

/-- **C11, negation of strictness for 512**: a 1792-byte string with the Falcon-512 header is accepted and its last 895 bytes
are ignored, whatever they are. -/
theorem fromBytes_ignores_tail (h : List Nat) (hl : h.length = 512) (hq : ∀ c ∈ h, c < 12289) (y junk : Bytes)
    (hy : modqEncode (h.map Int.ofNat) 512 = .ok y) (hj : IsBytes junk) (hjl : junk.length = 895) :
    fromBytes (0x09 :: (y ++ junk)) = .ok (512, h) := by
  have hpk := (modqEncode_ok_iff (h.map Int.ofNat) y).1 (by simpa [hl] using hy)
  have e : (h.map Int.ofNat).map Int.toNat = h := by simp [Function.comp_def]
  rw [e] at hpk
  rw [fromBytes_ok_iff]
  · refine ⟨Or.inr ?_, y ++ junk, Or.inl ⟨rfl, rfl⟩, hl, hq, ?_⟩
    · simp [hpk.2.2.1, hjl, hl, packedLen]
    · obtain ⟨k, hk⟩ := hpk.2.2.2
      rw [bytesBits_append, hk, List.append_assoc]
      exact List.prefix_append _ _
  · intro b hb
    rcases List.mem_cons.1 hb with rfl | hb
    · decide
    · rcases List.mem_append.1 hb with hb | hb
      · exact hpk.2.1 b hb
      · exact hj b hb

/-- **C11**: for keys of the honest length 897 the parsing is canonical: the string is the header and the encoding of the result. -/
theorem fromBytes_canonical_897 (pk : Bytes) (hd : IsBytes pk) (hl : pk.length = 897) (n : Nat) (h : List Nat)
    (hh : fromBytes pk = .ok (n, h)) :
    n = 512 ∧ ∃ y, modqEncode (h.map Int.ofNat) 512 = .ok y ∧ pk = 0x09 :: y := by
  obtain ⟨_, data, h1, h2, h3, t, ht⟩ := (fromBytes_ok_iff pk hd n h).1 hh
  rcases h1 with ⟨rfl, rfl⟩ | ⟨rfl, rfl⟩
  · refine ⟨rfl, data, ?_, rfl⟩
    have := congrArg List.length ht
    simp [h2] at this hl
    have ht0 : t = [] := by
      cases t with
      | nil => rfl
      | cons _ _ => simp at this; omega
    have e : (h.map Int.ofNat).map Int.toNat = h := by simp [Function.comp_def]
    have hok := (modqEncode_ok_iff (h.map Int.ofNat) data).2
      ⟨by intro c hc; rw [List.mem_map] at hc; obtain ⟨d, hd, rfl⟩ := hc; have := h3 d hd; simp; omega,
       by rw [e]
          exact ⟨fun c hc => hd c (by simp [hc]), by simp [h2, packedLen, hl], 0, by rw [← ht, ht0]; simp [zeros]⟩⟩
    simpa [h2] using hok
  · exact absurd hh (fromBytes_never_1024 _ hd _)

/-- The KAT generator's `encode_public_key` writes a key that `from_bytes` reads back reduced mod q. -/
theorem fromBytes_encodePublicKey (h : List Int) (hl : h.length = 512) :
    fromBytes (encodePublicKey h) = .ok (512, h.map fun c => (c % 12289).toNat) := by
  have hbits : (h.flatMap fun c => natBits 14 (c % 12289).toNat) = fieldBits 14 (h.map fun c => (c % 12289).toNat) := by
    simp [fieldBits, List.flatMap_map]
  have hlen : (h.flatMap fun c => natBits 14 (c % 12289).toNat).length = 8 * 896 := by
    rw [hbits]; simp [hl]
  have e : encodePublicKey h = 0x09 :: packBits (h.flatMap fun c => natBits 14 (c % 12289).toNat) := by
    unfold encodePublicKey packBits
    simp only [hlen]
  rw [e, fromBytes_ok_iff]
  · refine ⟨Or.inl (by rw [List.length_cons, packBits_length, hlen]), _, Or.inl ⟨rfl, rfl⟩, by simp [hl], ?_, ?_⟩
    · intro c hc
      rw [List.mem_map] at hc
      obtain ⟨d, _, rfl⟩ := hc
      have := Int.emod_lt_of_pos d (show (0:Int) < 12289 by decide)
      omega
    · rw [bytesBits_packBits 896 _ hlen, hbits]
      exact List.prefix_refl _
  · intro b hb
    rcases List.mem_cons.1 hb with rfl | hb
    · decide
    · exact packBits_isBytes _ b hb

example : fromBytes (encodePublicKey (List.replicate 512 (-3))) = .ok (512, List.replicate 512 12286) := by
  rw [fromBytes_encodePublicKey _ List.length_replicate, List.map_replicate]; rfl

/-! ### secret keys -/

/-- The NIST encoding (header `0x50+logn`, then `f`, `g`, `F` packed) is read back exactly, for every degree. -/
theorem decodeSecretKey_roundtrip_aux (logn : Nat) (h1 : 1 ≤ logn) (h10 : logn ≤ 10) (f g F : List Int)
    (lf : f.length = 2 ^ logn) (lg : g.length = 2 ^ logn) (lF : F.length = 2 ^ logn)
    (rf : ∀ c ∈ f, InRange (maxFgBits logn) c) (rg : ∀ c ∈ g, InRange (maxFgBits logn) c) (rF : ∀ c ∈ F, InRange 8 c)
    (rest : Bytes) :
    ∃ ef eg eF, trimEncode f (2 ^ logn) (maxFgBits logn) = .ok ef ∧ trimEncode g (2 ^ logn) (maxFgBits logn) = .ok eg ∧
      trimEncode F (2 ^ logn) 8 = .ok eF ∧
      decodeSecretKeyNist ((0x50 + logn) :: (ef ++ eg ++ eF ++ rest)) (2 ^ logn) = .ok (f, g, F) := by
  have hb : 0 < maxFgBits logn := by unfold maxFgBits; split <;> (try split) <;> (try split) <;> omega
  obtain ⟨ef, a1, a2, a3⟩ := trimDecode_encode f (maxFgBits logn) hb rf [] (by intro b hb; simp at hb)
  obtain ⟨eg, b1, b2, b3⟩ := trimDecode_encode g (maxFgBits logn) hb rg [] (by intro b hb; simp at hb)
  obtain ⟨eF, c1, c2, c3⟩ := trimDecode_encode F 8 (by decide) rF [] (by intro b hb; simp at hb)
  rw [lf] at a1 a2 a3
  rw [lg] at b1 b2 b3
  rw [lF] at c1 c2 c3
  rw [List.append_nil] at a3 b3 c3
  refine ⟨ef, eg, eF, a1, b1, c1, ?_⟩
  unfold decodeSecretKeyNist
  simp only
  rw [if_neg (by omega)]
  have e0 : (((0x50 + logn : Nat) : Int) - 0x50).toNat = logn := by omega
  rw [e0, Nat.shiftLeft_eq, Nat.one_mul, if_neg (by simp)]
  have hfl : (2 ^ logn * maxFgBits logn + 7) / 8 = ef.length := by rw [a2]; rfl
  have hFl : (2 ^ logn * maxFGBitsFG logn + 7) / 8 = eF.length := by rw [c2]; rfl
  have hgl : (2 ^ logn * maxFgBits logn + 7) / 8 = eg.length := by rw [b2]; rfl
  have d1 : (((0x50 + logn) :: (ef ++ eg ++ eF ++ rest)).drop 1).take ef.length = ef := by
    simp [List.append_assoc]
  have d2 : (((0x50 + logn) :: (ef ++ eg ++ eF ++ rest)).drop (1 + ef.length)).take eg.length = eg := by
    rw [Nat.add_comm]; simp [List.append_assoc]
  have d3 : (((0x50 + logn) :: (ef ++ eg ++ eF ++ rest)).drop (1 + ef.length + eg.length)).take eF.length = eF := by
    rw [show 1 + ef.length + eg.length = (ef ++ eg).length + 1 by simp; omega, List.append_assoc (ef ++ eg)]
    simp only [List.drop_succ_cons, List.drop_left, List.take_left]
  have he : ef.length = eg.length := by omega
  rw [hfl, hFl, d1, a3]
  simp only
  rw [show ((((0x50 + logn) :: (ef ++ eg ++ eF ++ rest)).drop (1 + ef.length)).take ef.length) = eg by rw [he] at d2 ⊢; exact d2, b3]
  simp only
  rw [show 1 + ef.length + ef.length = 1 + ef.length + eg.length by omega, d3]
  have : maxFGBitsFG logn = 8 := rfl
  rw [this, c3]

/-- Canonical direction: an accepted string starts with the header of the requested degree and the
unique encodings of the three returned polynomials. -/
theorem decodeSecretKey_canonical_aux (sk : Bytes) (hsk : IsBytes sk) (n : Nat) (f g F : List Int)
    (h : decodeSecretKeyNist sk n = .ok (f, g, F)) :
    ∃ logn, 1 ≤ logn ∧ logn ≤ 10 ∧ n = 2 ^ logn ∧ ∃ ef eg eF rest,
      trimEncode f n (maxFgBits logn) = .ok ef ∧ trimEncode g n (maxFgBits logn) = .ok eg ∧ trimEncode F n 8 = .ok eF ∧
      sk = (0x50 + logn) :: (ef ++ eg ++ eF ++ rest) := by
  unfold decodeSecretKeyNist at h
  cases sk with
  | nil => cases h
  | cons hd data =>
    simp only at h
    split at h
    · cases h
    · rename_i hr
      split at h
      · cases h
      · rename_i hn
        obtain ⟨logn, hlogn⟩ : ∃ k : Nat, (hd : Int) - 0x50 = k := ⟨((hd : Int) - 0x50).toNat, by omega⟩
        rw [hlogn] at h hn hr
        rw [Int.toNat_natCast] at h hn
        have hn' : n = 2 ^ logn := by
          false_or_by_contra; rename_i hc; apply hn; rw [Nat.shiftLeft_eq, Nat.one_mul]; exact hc
        have hb : 0 < maxFgBits logn := by unfold maxFgBits; split <;> (try split) <;> (try split) <;> omega
        have hbt : ∀ o l, IsBytes (((hd :: data).drop o).take l) := by
          intro o l b hb; exact hsk b (List.mem_of_mem_drop (List.mem_of_mem_take hb))
        split at h
        · cases h
        · rename_i f' hf
          split at h
          · cases h
          · rename_i g' hg
            split at h
            · cases h
            · rename_i F' hF
              simp only [Except.ok.injEq, Prod.mk.injEq] at h
              obtain ⟨rfl, rfl, rfl⟩ := h
              obtain ⟨p1, p2⟩ := (trimDecode_ok_iff _ (hbt _ _) n _ hb _).1 hf
              obtain ⟨q1, q2⟩ := (trimDecode_ok_iff _ (hbt _ _) n _ hb _).1 hg
              obtain ⟨r1, r2⟩ := (trimDecode_ok_iff _ (hbt _ _) n _ (show 0 < maxFGBitsFG logn by unfold maxFGBitsFG; decide) _).1 hF
              have cf := (trimDecode_canonical _ (hbt _ _) n _ hb _ hf).2.2
              have cg := (trimDecode_canonical _ (hbt _ _) n _ hb _ hg).2.2
              have cF := (trimDecode_canonical _ (hbt _ _) n _ (show 0 < maxFGBitsFG logn by unfold maxFGBitsFG; decide) _ hF).2.2
              unfold packedLen at p1 q1 r1 cf cg cF
              rw [List.take_take, Nat.min_self] at cf cg cF
              refine ⟨logn, by omega, by omega, hn', _, _, _,
                ((hd :: data).drop (1 + (n * maxFgBits logn + 7) / 8 + (n * maxFgBits logn + 7) / 8)).drop ((n * maxFGBitsFG logn + 7) / 8), cf, cg, cF, ?_⟩
              have hh : hd = 0x50 + logn := by omega
              rw [hh]
              congr 1
              rw [List.append_assoc, List.take_append_drop, List.append_assoc]
              have e2 : ∀ (a : Nat) (l : List Nat), l.take a ++ ((l.drop a).take a ++ (l.drop a).drop a) = l := by
                intro a l; rw [List.take_append_drop, List.take_append_drop]
              have := e2 ((n * maxFgBits logn + 7) / 8) ((hd :: data).drop 1)
              rw [List.drop_drop, List.drop_drop] at this
              rw [hh] at this
              exact this.symm

theorem maxFgBits_eq : ∀ logn ≤ 10, 1 ≤ logn → maxFgBits logn = fgWidth logn := by decide

/-- **C12**: the NIST encoding (header `0x50+logn`, then `f`, `g` in the tabulated width and `F` in 8 bits) is read back exactly, for every degree. -/
theorem decodeSecretKey_roundtrip (logn : Nat) (h1 : 1 ≤ logn) (h10 : logn ≤ 10) (f g F : List Int)
    (lf : f.length = 2 ^ logn) (lg : g.length = 2 ^ logn) (lF : F.length = 2 ^ logn)
    (rf : ∀ c ∈ f, InRange (fgWidth logn) c) (rg : ∀ c ∈ g, InRange (fgWidth logn) c) (rF : ∀ c ∈ F, InRange 8 c)
    (rest : Bytes) :
    ∃ ef eg eF, trimEncode f (2 ^ logn) (fgWidth logn) = .ok ef ∧ trimEncode g (2 ^ logn) (fgWidth logn) = .ok eg ∧
      trimEncode F (2 ^ logn) 8 = .ok eF ∧
      decodeSecretKeyNist ((0x50 + logn) :: (ef ++ eg ++ eF ++ rest)) (2 ^ logn) = .ok (f, g, F) := by
  have e := maxFgBits_eq logn h10 h1
  rw [← e] at rf rg ⊢
  exact decodeSecretKey_roundtrip_aux logn h1 h10 f g F lf lg lF rf rg rF rest

/-- **C12**, canonical direction: an accepted string starts with the header of the requested degree and the
unique encodings of the three returned polynomials. -/
theorem decodeSecretKey_canonical (sk : Bytes) (hsk : IsBytes sk) (n : Nat) (f g F : List Int)
    (h : decodeSecretKeyNist sk n = .ok (f, g, F)) :
    ∃ logn, 1 ≤ logn ∧ logn ≤ 10 ∧ n = 2 ^ logn ∧ ∃ ef eg eF rest,
      trimEncode f n (fgWidth logn) = .ok ef ∧ trimEncode g n (fgWidth logn) = .ok eg ∧ trimEncode F n 8 = .ok eF ∧
      sk = (0x50 + logn) :: (ef ++ eg ++ eF ++ rest) := by
  obtain ⟨logn, h1, h2, h3⟩ := decodeSecretKey_canonical_aux sk hsk n f g F h
  rw [maxFgBits_eq logn h2 h1] at h3
  exact ⟨logn, h1, h2, h3⟩

example : decodeSecretKeyNist [0x51, 1, 0xFF, 2, 3, 4, 0x85] 2 = .ok ([1, -1], [2, 3], [4, -123]) := by decide +kernel

/-- Finding: the repository's own `encode_secret_key` writes a different format; for keys with a small first
coefficient (every real key) its output is refused by `decode_secret_key_nist`. -/
theorem decodeSecretKey_rejects_encodeSecretKey (c : Int) (f : List Int) (polys : List (List Int)) (hc : -256 ≤ c ∧ c < 256) (n : Nat) :
    decodeSecretKeyNist (encodeSecretKey ((c :: f) :: polys)) n = .error .valueError := by
  unfold encodeSecretKey decodeSecretKeyNist
  simp only [List.flatMap_cons, List.cons_append]
  rw [if_pos]
  split <;> omega

/-! ### contract -/

/-- **C36**: the contract's unpacking accepts exactly what `modq_decode` accepts (512 coefficients) and returns the same list,
for every byte string and offset; it reverts on everything else. -/
theorem solDecompress_eq_modqDecode (buf : Bytes) (hb : IsBytes buf) (offset : Nat) (x : List Nat) :
    solDecompress buf offset = .ok x ↔ modqDecode (buf.drop offset) 512 = .ok x := by
  have hd : IsBytes (buf.drop offset) := fun b hb' => hb b (List.mem_of_mem_drop hb')
  unfold solDecompress
  rw [modqDecode_eq _ _ hd]
  exact solDecLoop_eq 512 0 [] [] _ hd accIs_nil (by simp) x

/-- hence the contract reads back the NIST encoding of every Falcon-512 public key -/
theorem solDecompress_roundtrip (h : List Nat) (hl : h.length = 512) (hq : ∀ c ∈ h, c < 12289) (rest : Bytes) (hr : IsBytes rest) :
    ∃ y, modqEncode (h.map Int.ofNat) 512 = .ok y ∧ solDecompress (0x09 :: (y ++ rest)) 1 = .ok h := by
  obtain ⟨y, h1, h2, h3⟩ := modqDecode_encode h hq rest hr
  rw [hl] at h1 h2 h3
  refine ⟨y, h1, ?_⟩
  rw [solDecompress_eq_modqDecode]
  · simpa using h3
  · have hpk := (modqEncode_ok_iff (h.map Int.ofNat) y).1 (by simpa [hl] using h1)
    intro b hb
    rcases List.mem_cons.1 hb with rfl | hb
    · decide
    · rcases List.mem_append.1 hb with hb | hb
      · exact hpk.2.1 b hb
      · exact hr b hb

end Verif.Codec
