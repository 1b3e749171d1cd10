import Verif.CRef.CompLemmas
import Verif.CRef.CodecSpec

/-! # Properties C78 and C79: the codecs of the C reference code -/

namespace Verif.CRef
open Verif Verif.Codec Verif.Codec.Spec Verif.Encoding Verif.Encoding.Spec Verif.CRef.CodecSpec

/-! ## Fixed width -/

theorem any_ge_iff (x : List Nat) : x.any (fun v => decide (v ≥ 12289)) = true ↔ ¬ ∀ c ∈ x, c < 12289 := by
  simp [List.any_eq_true]

theorem packing_iff (w : Nat) (hw : w ≤ 24) (vs : List Nat) (hv : ∀ v ∈ vs, v < 2 ^ w) (y : Bytes) : packLoop w vs 0 0 [] = y ↔ IsPacking w vs y :=
  ⟨fun h => h ▸ pack_isPacking w hw vs hv, fun h => Codec.IsPacking.unique (pack_isPacking w hw vs hv) h⟩

/-- **C79**, `modq_encode` and `modq_encode16`: the output exists exactly for canonical residues and a large enough buffer, and is then the packing of the residues in `w` bits. -/
theorem C79_modq_encode (w : Nat) (hw : w = 14 ∨ w = 16) (logn maxOut : Nat) (x : List Nat) (_hl : x.length = 2 ^ logn) (y : Bytes) :
    modqEncodeW w maxOut x logn = some y ↔ (∀ c ∈ x, c < 12289) ∧ packedLen (2 ^ logn) w ≤ maxOut ∧ IsPacking w x y := by
  unfold modqEncodeW
  by_cases hx : ∀ c ∈ x, c < 12289
  · rw [if_neg (by rw [any_ge_iff]; simpa using hx), outLen_eq]
    have hx2 : ∀ c ∈ x, c < 2 ^ w := fun c hc => by
      have := hx c hc
      rcases hw with rfl | rfl <;> omega
    by_cases ho : packedLen (2 ^ logn) w > maxOut
    · rw [if_pos ho]
      exact ⟨by simp, fun h => absurd h.2.1 (by omega)⟩
    · rw [if_neg ho, Option.some.injEq, packing_iff w (by omega) x hx2]
      exact ⟨fun h => ⟨hx, by omega, h⟩, fun h => h.2.2⟩
  · rw [if_pos (by rw [any_ge_iff]; exact hx)]
    exact ⟨by simp, fun h => absurd h.1 hx⟩

theorem modqField_mapM (vs x : List Nat) : vs.mapM modqField = some x ↔ vs = x ∧ ∀ c ∈ x, c < 12289 := by
  induction vs generalizing x with
  | nil =>
    rw [List.mapM_nil]
    constructor
    · intro h; cases h; simp
    · rintro ⟨rfl, _⟩; rfl
  | cons v vs ih =>
    rw [List.mapM_cons]
    by_cases hv : v ≥ 12289
    · have : modqField v = none := by unfold modqField; rw [if_pos hv]
      rw [this]
      refine ⟨by simp, ?_⟩
      rintro ⟨rfl, h⟩
      have := h v (by simp); omega
    · have e : modqField v = some v := by unfold modqField; rw [if_neg hv]
      rw [e]
      simp only [Option.bind_eq_bind, Option.bind_some, Option.pure_def, Option.bind_eq_some_iff, Option.some.injEq]
      constructor
      · rintro ⟨z, h1, rfl⟩
        obtain ⟨rfl, h⟩ := (ih z).1 h1
        refine ⟨rfl, ?_⟩
        intro c hc
        rcases List.mem_cons.1 hc with rfl | hc
        · omega
        · exact h c hc
      · rintro ⟨rfl, h⟩
        exact ⟨vs, (ih vs).2 ⟨rfl, fun c hc => h c (by simp [hc])⟩, rfl⟩

/-- **C79**, `modq_decode` and `modq_decode16`: a vector is accepted exactly when the data begins with its packing, so each vector has one encoding; no byte outside the input is read. -/
theorem C79_modq_decode (w : Nat) (hw : w = 14 ∨ w = 16) (logn : Nat) (data : Bytes) (hd : IsBytes data) (x : List Nat) :
    (modqDecodeW w logn data = .ok x ↔
      packedLen (2 ^ logn) w ≤ data.length ∧ x.length = 2 ^ logn ∧ (∀ c ∈ x, c < 12289) ∧ IsPacking w x (data.take (packedLen (2 ^ logn) w))) ∧
    (∀ e, modqDecodeW w logn data = .error e → e = .valueError) := by
  unfold modqDecodeW
  rw [outLen_eq]
  by_cases ho : packedLen (2 ^ logn) w > data.length
  · rw [if_pos ho]
    exact ⟨⟨by simp, fun h => absurd h.1 (by omega)⟩, fun e h => by cases h; rfl⟩
  · rw [if_neg ho]
    refine ⟨?_, fun e h => unpack_error _ w (by omega) (by omega) _ data hd (by omega) e h⟩
    rw [unpack_iff _ w (by omega) (by omega) _ data hd (by omega)]
    constructor
    · rintro ⟨vs, h1, h2, h3, h4⟩
      obtain ⟨rfl, h5⟩ := (modqField_mapM vs x).1 h4
      exact ⟨by omega, h1, h5, h3⟩
    · rintro ⟨_, h1, h2, h3⟩
      refine ⟨x, h1, fun v hv => ?_, h3, (modqField_mapM x x).2 ⟨rfl, h2⟩⟩
      have := h2 v hv
      rcases hw with rfl | rfl <;> omega

theorem except_eq {α : Type} (a b : Except Err α) (h1 : ∀ x, a = .ok x ↔ b = .ok x) (h2 : ∀ e, a = .error e → e = .valueError) (h3 : ∀ e, b = .error e → e = .valueError) : a = b := by
  cases ha : a with
  | ok x => rw [ha] at h1; exact ((h1 x).1 rfl).symm
  | error e =>
    cases hb : b with
    | ok x => rw [ha, hb] at h1; exact absurd ((h1 x).2 rfl) (by simp)
    | error e' => rw [h2 e ha, h3 e' hb]

/-- **C79**: the C reader and writer of 14-bit public keys are the Python ones. -/
theorem C79_modq_python (logn : Nat) (data : Bytes) (hd : IsBytes data) (x : List Nat) (hl : x.length = 2 ^ logn) (maxOut : Nat) (hm : packedLen (2 ^ logn) 14 ≤ maxOut) (y : Bytes) :
    modqDecodeW 14 logn data = modqDecode data (2 ^ logn) ∧
    (modqEncodeW 14 maxOut x logn = some y ↔ modqEncode (x.map Int.ofNat) (2 ^ logn) = .ok y) := by
  refine ⟨except_eq _ _ (fun z => ?_) (fun e => (C79_modq_decode 14 (Or.inl rfl) logn data hd []).2 e) (fun e h => modqDecode_error data hd _ e h), ?_⟩
  · rw [(C79_modq_decode 14 (Or.inl rfl) logn data hd z).1, modqDecode_ok_iff data hd]
  · rw [C79_modq_encode 14 (Or.inl rfl) logn maxOut x hl]
    have := modqEncode_ok_iff (x.map Int.ofNat) y
    have e : (x.map Int.ofNat).map Int.toNat = x := by simp [Function.comp_def]
    rw [List.length_map, hl, e] at this
    rw [this]
    simp only [List.mem_map, forall_exists_index, and_imp, forall_apply_eq_imp_iff₂]
    constructor
    · rintro ⟨h1, _, h3⟩; exact ⟨fun a ha => by have := h1 a ha; simp; omega, h3⟩
    · rintro ⟨h1, h3⟩; exact ⟨fun a ha => by have := (h1 a ha).2; simp at this; omega, hm, h3⟩

/-- **C79**: the C reader and writer of the signed polynomials of secret keys (`trim_i8`, up to 8 bits, and `trim_i16`, up to 16 bits) are the Python ones. -/
theorem C79_trim (t logn bits : Nat) (ht : (t = 256 ∧ bits ≤ 8) ∨ (t = 65536 ∧ bits ≤ 16)) (hb : 0 < bits) (data : Bytes) (hd : IsBytes data) (x : List Int) (hl : x.length = 2 ^ logn)
    (maxOut : Nat) (hm : packedLen (2 ^ logn) bits ≤ maxOut) (y : Bytes) :
    trimDecodeT t logn bits data = trimDecode data (2 ^ logn) bits ∧
    (trimEncodeT t maxOut x logn bits = some y ↔ trimEncode x (2 ^ logn) bits = .ok y) := by
  have h16 : bits ≤ 16 := by omega
  have ht' : t = 256 ∨ t = 65536 := by omega
  have htb : 2 ^ bits ≤ t := by
    rcases ht with ⟨rfl, h⟩ | ⟨rfl, h⟩
    · exact Nat.pow_le_pow_right (n := 2) (by decide) h
    · exact Nat.pow_le_pow_right (n := 2) (by decide) h
  have hp := packedLen_bounds (2 ^ logn) bits
  constructor
  · rw [trimDecode_eq data _ bits hb hd, ← bm_congr _ _ _ _ (fun v hv => trimValue_eq t bits v hb h16 ht' htb hv)]
    unfold trimDecodeT
    rw [outLen_eq]
    by_cases ho : packedLen (2 ^ logn) bits > data.length
    · rw [if_pos ho]
      cases h : bm (2 ^ logn) bits (trimValue t bits) [] [] data with
      | none => rfl
      | some p =>
        obtain ⟨r, z, d⟩ := p
        have := (bm_sound _ bits _ [] [] data (by simp) r z d h).2
        simp at this; omega
    · rw [if_neg ho]
      have e := trimLoop_eq t (2 ^ logn) bits hb (by omega) 0 [] [] data hd accIs_nil (by intro _; simpa using hb) (by simp; omega)
      rw [List.length_nil] at e
      exact e
  · have := trimEncode_ok_iff x bits hb y
    rw [hl] at this
    rw [this]
    unfold trimEncodeT
    dsimp only
    rw [outLen_eq]
    have hany : x.any (fun v => decide (v < -((2 : Int) ^ (bits - 1) - 1)) || decide (v > (2 : Int) ^ (bits - 1) - 1)) = true ↔ ¬ ∀ c ∈ x, InRange bits c := by
      rw [List.any_eq_true]
      simp only [Bool.or_eq_true, decide_eq_true_eq, not_forall, InRange]
      constructor
      · rintro ⟨c, h1, h2⟩; exact ⟨c, h1, by omega⟩
      · rintro ⟨c, h1, h2⟩; exact ⟨c, h1, by omega⟩
    have hmap : x.map (trimField t bits) = x.map (twos bits) := List.map_congr_left fun c _ => trimField_eq t bits ht' htb c
    rw [hmap]
    by_cases hx : ∀ c ∈ x, InRange bits c
    · rw [if_neg (by rw [hany]; simpa using hx), if_neg (by omega), Option.some.injEq,
        packing_iff bits (by omega) _ (by
          intro v hv
          obtain ⟨c, hc, rfl⟩ := List.mem_map.1 hv
          exact (trim_fieldCode bits hb).lt c (hx c hc))]
      exact ⟨fun h => ⟨hx, h⟩, fun h => h.2⟩
    · rw [if_pos (by rw [hany]; exact hx)]
      exact ⟨by simp, fun h => absurd h.1 hx⟩

/-! ## The compressed format -/

theorem any_range_iff (x : List Int) : x.any (fun v => decide (v < -2047) || decide (v > 2047)) = true ↔ ¬ ∀ c ∈ x, c.natAbs ≤ 2047 := by
  rw [List.any_eq_true]
  simp only [Bool.or_eq_true, decide_eq_true_eq, not_forall]
  constructor
  · rintro ⟨c, h1, h2⟩; exact ⟨c, h1, by omega⟩
  · rintro ⟨c, h1, h2⟩; exact ⟨c, h1, by omega⟩

/-- **C79**, `comp_encode`: it succeeds exactly when every coefficient is within ±2047 and the code fits the buffer, and writes the code words followed by the zero bits that complete the
last byte. -/
theorem C79_comp_encode (cap : Option Nat) (x : List Int) (y : Bytes) :
    compEncode cap x = some y ↔ (∀ c ∈ x, c.natAbs ≤ 2047) ∧ (∀ c, cap = some c → (codeLength x + 7) / 8 ≤ c) ∧
      IsBytes y ∧ y.length = (codeLength x + 7) / 8 ∧ ZeroPadded y (code x) := by
  unfold compEncode
  by_cases hx : ∀ c ∈ x, c.natAbs ≤ 2047
  · rw [if_neg (by rw [any_range_iff]; simpa using hx)]
    obtain ⟨a, b⟩ := compEncLoop_ok cap x hx [] 0 0 [] outInv_init (by decide) (by intro c _; simp)
    simp only [List.nil_append, codeLength_eq] at a b
    by_cases hf : Fits cap ((codeLength x + 7) / 8)
    · obtain ⟨z, z1, z2, k, z3, z4⟩ := a hf
      rw [z1, Option.some.injEq]
      have hlen := congrArg List.length z4
      simp only [bytesBits_length, List.length_append, codeLength_eq, zeros, List.length_replicate] at hlen
      constructor
      · rintro rfl
        exact ⟨hx, hf, z2, by omega, k, z4⟩
      · rintro ⟨_, _, y1, y2, k', y3⟩
        apply bytesBits_inj z2 y1
        have hlen' := congrArg List.length y3
        simp only [bytesBits_length, List.length_append, codeLength_eq, zeros, List.length_replicate] at hlen'
        rw [z4, y3]
        congr 2
        omega
    · rw [b hf]
      exact ⟨by simp, fun h => absurd h.2.1 hf⟩
  · rw [if_pos (by rw [any_range_iff]; exact hx)]
    exact ⟨by simp, fun h => absurd h.1 hx⟩

/-- **C79**, `comp_decode`: it returns the vector `v` and a length exactly when the length is the number of bytes of the code of `v`, the input begins with that code, the unused bits of its
last byte are zero, and every coefficient is within ±2047. -/
theorem C79_comp_decode (logn : Nat) (data : Bytes) (hd : IsBytes data) (v : List Int) (len : Nat) :
    compDecode logn data = some (v, len) ↔ v.length = 2 ^ logn ∧ (∀ c ∈ v, c.natAbs ≤ 2047) ∧ len = (codeLength v + 7) / 8 ∧ len ≤ data.length ∧
      ZeroPadded (data.take len) (code v) := by
  unfold compDecode
  rw [Option.map_eq_some_iff]
  constructor
  · rintro ⟨⟨z, d'⟩, h1, h2⟩
    simp only [Prod.mk.injEq] at h2
    obtain ⟨rfl, rfl⟩ := h2
    obtain ⟨y, k, c1, c2, c3, c4, c5, p, rfl⟩ := compDecLoop_sound (2 ^ logn) 0 [] [] data hd accIs_nil (by simp) z d' h1
    rw [List.nil_append] at c1 c5
    subst c1
    have hlen := congrArg List.length c5
    simp only [bytesBits_length, List.length_append, codeLength_eq, zeros, List.length_replicate] at hlen
    have e : (p ++ d').length - d'.length = p.length := by simp
    rw [e]
    refine ⟨c2, c3, by omega, by simp, k, ?_⟩
    rw [List.take_left]
    rw [bytesBits_append] at c5
    exact (List.append_inj' c5 rfl).1
  · rintro ⟨h1, h2, h3, h4, k, h5⟩
    have hsplit : bytesBits data = code v ++ (zeros k ++ bytesBits (data.drop len)) := by
      rw [← List.append_assoc, ← h5, ← bytesBits_append, List.take_append_drop]
    obtain ⟨acc', r', data', b1, b2, b3, b4, b5⟩ := compDecLoop_complete v h2 0 [] [] data hd accIs_nil (by simp) _ (by rw [List.nil_append]; exact hsplit)
    rw [List.length_nil, h1, List.nil_append] at b5
    have hk := congrArg List.length h5
    simp only [bytesBits_length, List.length_append, codeLength_eq, zeros, List.length_replicate, List.length_take] at hk
    have hk8 : k < 8 := by omega
    have hl2 := congrArg List.length b1
    simp only [bytesBits_length, List.length_append, zeros, List.length_replicate, List.length_drop] at hl2
    have hr : r'.length = k := by omega
    have hinj := List.append_inj b1 (by simp [zeros, hr])
    have hdl : data'.length = data.length - len := by omega
    refine ⟨(v, data'), ?_, by simp only [Prod.mk.injEq, true_and]; omega⟩
    rw [b5, compDecLoop, b3.low, hinj.1, bitsNat_zeros]
    simp

/-- **C79**: the code of a vector is read back, whatever follows it. -/
theorem C79_comp_roundtrip (logn cap : Nat) (v : List Int) (y rest : Bytes) (hl : v.length = 2 ^ logn) (hr : IsBytes rest) (h : compEncode (some cap) v = some y) :
    y.length ≤ cap ∧ compDecode logn (y ++ rest) = some (v, y.length) := by
  obtain ⟨h1, h2, h3, h4, h5⟩ := (C79_comp_encode (some cap) v y).1 h
  refine ⟨by rw [h4]; exact h2 cap rfl, ?_⟩
  rw [C79_comp_decode _ _ (by
    intro b hb
    rcases List.mem_append.1 hb with hb | hb
    · exact h3 b hb
    · exact hr b hb)]
  exact ⟨hl, h1, h4, by simp, by rw [List.take_left]; exact h5⟩

/-- **C79**: the compressed encoding of the C code is unique: two inputs that decode to the same vector consume the same bytes. -/
theorem C79_comp_unique (logn : Nat) (a b : Bytes) (ha : IsBytes a) (hb : IsBytes b) (v : List Int) (la lb : Nat)
    (h1 : compDecode logn a = some (v, la)) (h2 : compDecode logn b = some (v, lb)) : la = lb ∧ a.take la = b.take lb := by
  obtain ⟨_, a2, a3, a4, k1, a5⟩ := (C79_comp_decode logn a ha v la).1 h1
  obtain ⟨_, b2, b3, b4, k2, b5⟩ := (C79_comp_decode logn b hb v lb).1 h2
  refine ⟨by omega, bytesBits_inj (fun c hc => ha c (List.mem_of_mem_take hc)) (fun c hc => hb c (List.mem_of_mem_take hc)) ?_⟩
  have e1 := congrArg List.length a5
  have e2 := congrArg List.length b5
  simp only [bytesBits_length, List.length_append, codeLength_eq, zeros, List.length_replicate, List.length_take] at e1 e2
  rw [a5, b5]
  congr 2
  omega

/-- **C79**: whatever the C decoder accepts, the Python `decompress` accepts with the same vector; and the C encoding followed by zero bytes is the Python one. -/
theorem C79_comp_python (logn : Nat) (v : List Int) (slen : Nat) :
    (∀ data len, IsBytes data → data.length ≤ slen → compDecode logn data = some (v, len) → decompress data slen (2 ^ logn) = .ok (some v)) ∧
    (∀ y, compEncode (some slen) v = some y → compress v slen = some (y ++ List.replicate (slen - y.length) 0)) := by
  constructor
  · intro data len hd hl h
    obtain ⟨h1, h2, h3, h4, k, h5⟩ := (C79_comp_decode logn data hd v len).1 h
    rw [decompress_accepts_iff _ _ _ (by have := Nat.pow_pos (n := logn) (show 0 < 2 by decide); omega)]
    refine ⟨hl, h1, zeros k ++ bytesBits (data.drop len), ?_⟩
    rw [← List.append_assoc, ← h5, ← bytesBits_append, List.take_append_drop]
  · intro y h
    obtain ⟨h1, h2, h3, h4, k, h5⟩ := (C79_comp_encode (some slen) v y).1 h
    have := h2 slen rfl
    rw [(compress_fits_iff v slen).2]
    have hz : ∀ m, bytesBits (List.replicate m 0) = zeros (8 * m) := by
      intro m
      induction m with
      | zero => rfl
      | succ m ih =>
        rw [List.replicate_succ, bytesBits_cons, ih, natBits_zero]
        simp only [zeros, List.replicate_append_replicate]; congr 1; omega
    refine ⟨by omega, ?_, by rw [List.length_append, List.length_replicate]; omega, k + 8 * (slen - y.length), ?_⟩
    · intro b hb
      rcases List.mem_append.1 hb with hb | hb
      · exact h3 b hb
      · rw [List.mem_replicate] at hb; omega
    · rw [bytesBits_append, hz, h5, List.append_assoc]
      simp only [zeros, List.replicate_append_replicate]

/-! ## The 16-bit format -/

theorem natBits_split (w : Nat) : natBits 16 w = natBits 8 (w / 256) ++ natBits 8 (w % 256) := by
  have h := natBits_append 8 8 w
  rw [h]
  have := natBits_mod 8 w
  rw [← this]

theorem be16_bits (ws : List Nat) (h : ∀ w ∈ ws, w < 65536) : bytesBits (be16 ws) = fieldBits 16 ws := by
  induction ws with
  | nil => rfl
  | cons w ws ih =>
    have ih := ih (fun v hv => h v (by simp [hv]))
    have e1 : be16 (w :: ws) = (w / 256) :: (w % 256) :: be16 ws := rfl
    have e2 : fieldBits 16 (w :: ws) = natBits 16 w ++ fieldBits 16 ws := rfl
    rw [e1, e2, bytesBits_cons, bytesBits_cons, ih, natBits_split w, List.append_assoc]

theorem be16_bytes (ws : List Nat) (h : ∀ w ∈ ws, w < 65536) : IsBytes (be16 ws) := by
  intro b hb
  unfold be16 at hb
  rw [List.mem_flatMap] at hb
  obtain ⟨w, hw, hb⟩ := hb
  have := h w hw
  simp at hb
  omega

theorem be16_length (ws : List Nat) : (be16 ws).length = 2 * ws.length := by
  induction ws with
  | nil => rfl
  | cons w ws ih =>
    have e1 : be16 (w :: ws) = (w / 256) :: (w % 256) :: be16 ws := rfl
    rw [e1]; simp only [List.length_cons, ih]; omega

theorem packed16 (n : Nat) : packedLen n 16 = 2 * n := by unfold packedLen; omega

theorem packing16_iff (ws : List Nat) (h : ∀ w ∈ ws, w < 65536) (y : Bytes) : IsPacking 16 ws y ↔ y = be16 ws := by
  have hb : IsPacking 16 ws (be16 ws) := ⟨be16_bytes ws h, by rw [be16_length, packed16], 0, by rw [be16_bits ws h]; simp [zeros]⟩
  exact ⟨fun hy => Codec.IsPacking.unique hy hb, fun e => e ▸ hb⟩

theorem comp16Value_iff (w : Nat) (hw : w < 65536) (x : Int) : comp16Value w = some x ↔ (w < 12289 ∨ 32768 ≤ w) ∧ x = value16 w := by
  unfold comp16Value value16 i16
  rw [Nat.mod_eq_of_lt hw]
  dsimp only
  by_cases h1 : w < 32768
  · rw [if_pos h1]
    by_cases h2 : w < 12289
    · rw [if_neg (by omega), Option.some.injEq]
      by_cases h3 : w < 2047
      · rw [if_pos (by omega), if_pos h3]; exact ⟨fun h => ⟨by omega, by omega⟩, fun h => by omega⟩
      · rw [if_neg (by omega), if_neg h3, if_pos h2]; exact ⟨fun h => ⟨by omega, by omega⟩, fun h => by omega⟩
    · rw [if_pos (by omega)]
      exact ⟨by simp, fun h => by omega⟩
  · rw [if_neg h1, if_neg (by omega), if_pos (by omega), if_neg (by omega), if_neg (by omega), Option.some.injEq]
    exact ⟨fun h => ⟨by omega, by omega⟩, fun h => by omega⟩

theorem comp16_mapM (ws : List Nat) (hw : ∀ w ∈ ws, w < 65536) (x : List Int) :
    ws.mapM comp16Value = some x ↔ (∀ w ∈ ws, w < 12289 ∨ 32768 ≤ w) ∧ x = ws.map value16 := by
  induction ws generalizing x with
  | nil =>
    rw [List.mapM_nil]
    constructor
    · intro h; cases h; simp
    · rintro ⟨_, rfl⟩; rfl
  | cons v vs ih =>
    have ih := ih (fun w h => hw w (by simp [h]))
    have hv := comp16Value_iff v (hw v (by simp))
    rw [List.mapM_cons]
    cases e : comp16Value v with
    | none =>
      refine ⟨by simp, ?_⟩
      rintro ⟨h, _⟩
      have := (hv (value16 v)).2 ⟨h v (by simp), rfl⟩
      rw [e] at this; cases this
    | some z =>
      obtain ⟨z1, z2⟩ := (hv z).1 e
      simp only [Option.bind_eq_bind, Option.bind_some, Option.pure_def, Option.bind_eq_some_iff, Option.some.injEq]
      constructor
      · rintro ⟨t, h1, rfl⟩
        obtain ⟨h2, rfl⟩ := (ih t).1 h1
        refine ⟨?_, by simp [z2]⟩
        intro w hw'
        rcases List.mem_cons.1 hw' with rfl | hw'
        · exact z1
        · exact h2 w hw'
      · rintro ⟨h1, h2⟩
        refine ⟨vs.map value16, (ih _).2 ⟨fun w h => h1 w (by simp [h]), rfl⟩, ?_⟩
        rw [h2, z2]; rfl

/-- **C78**, `comp_decode16`, exactly: the input consists of at least `2n` bytes, the first `n` big-endian 16-bit words are each below 12289 or at least 32768, and the vector is made of
their readings; no byte outside the input is read. -/
theorem C78_comp_decode16 (logn : Nat) (data : Bytes) (hd : IsBytes data) (x : List Int) :
    (compDecode16 logn data = .ok x ↔ ∃ ws rest, data = be16 ws ++ rest ∧ ws.length = 2 ^ logn ∧ (∀ w ∈ ws, w < 12289 ∨ (32768 ≤ w ∧ w < 65536)) ∧ x = ws.map value16) ∧
    (∀ e, compDecode16 logn data = .error e → e = .valueError) := by
  unfold compDecode16
  rw [outLen_eq, packed16]
  by_cases ho : 2 * 2 ^ logn > data.length
  · rw [if_pos ho]
    refine ⟨⟨by simp, ?_⟩, fun e h => by cases h; rfl⟩
    rintro ⟨ws, rest, rfl, h1, _⟩
    rw [List.length_append, be16_length, h1] at ho
    omega
  · rw [if_neg ho]
    have hlen : packedLen (2 ^ logn) 16 ≤ data.length := by rw [packed16]; omega
    refine ⟨?_, fun e h => unpack_error _ 16 (by omega) (by omega) _ data hd hlen e h⟩
    rw [unpack_iff _ 16 (by omega) (by omega) _ data hd hlen, packed16]
    constructor
    · rintro ⟨ws, h1, h2, h3, h4⟩
      have h2' : ∀ w ∈ ws, w < 65536 := h2
      obtain ⟨h5, h6⟩ := (comp16_mapM ws h2' x).1 h4
      refine ⟨ws, data.drop (2 * 2 ^ logn), ?_, h1, fun w hw => ?_, h6⟩
      · rw [← (packing16_iff ws h2' _).1 h3, List.take_append_drop]
      · have a := h5 w hw
        have b := h2' w hw
        omega
    · rintro ⟨ws, rest, rfl, h1, h2, h3⟩
      have h2' : ∀ w ∈ ws, w < 65536 := fun w hw => by have := h2 w hw; omega
      refine ⟨ws, h1, h2', ?_, (comp16_mapM ws h2' x).2 ⟨fun w hw => by have := h2 w hw; omega, h3⟩⟩
      rw [packing16_iff ws h2', ← h1, ← be16_length, List.take_left]

/-- **C78**, `comp_encode16`: it succeeds exactly when every coefficient is within ±12288 and the buffer holds `2n` bytes, and writes the residues modulo 12289 as big-endian 16-bit words. -/
theorem C78_comp_encode16 (logn maxOut : Nat) (x : List Int) (_hl : x.length = 2 ^ logn) (y : Bytes) :
    compEncode16 maxOut x logn = some y ↔ (∀ c ∈ x, -12288 ≤ c ∧ c ≤ 12288) ∧ 2 * 2 ^ logn ≤ maxOut ∧ y = be16 (x.map fun c => (c % 12289).toNat) := by
  unfold compEncode16
  have hany : x.any (fun v => decide (v ≥ 12289) || decide (v ≤ -12289)) = true ↔ ¬ ∀ c ∈ x, -12288 ≤ c ∧ c ≤ 12288 := by
    rw [List.any_eq_true]
    simp only [Bool.or_eq_true, decide_eq_true_eq, not_forall]
    constructor
    · rintro ⟨c, h1, h2⟩; exact ⟨c, h1, by omega⟩
    · rintro ⟨c, h1, h2⟩; exact ⟨c, h1, by omega⟩
  by_cases hx : ∀ c ∈ x, -12288 ≤ c ∧ c ≤ 12288
  · rw [if_neg (by rw [hany]; simpa using hx), outLen_eq, packed16]
    by_cases ho : 2 * 2 ^ logn > maxOut
    · rw [if_pos ho]
      exact ⟨by simp, fun h => absurd h.2.1 (by omega)⟩
    · have hmap : x.map comp16Field = x.map fun c => (c % 12289).toNat := by
        apply List.map_congr_left
        intro c hc
        have := hx c hc
        unfold comp16Field
        split <;> omega
      have hlt : ∀ v ∈ x.map (fun c : Int => (c % 12289).toNat), v < 65536 := by
        intro v hv
        obtain ⟨c, _, rfl⟩ := List.mem_map.1 hv
        omega
      rw [if_neg ho, hmap, Option.some.injEq, packing_iff 16 (by omega) _ hlt, packing16_iff _ hlt]
      exact ⟨fun h => ⟨hx, by omega, h⟩, fun h => h.2.2⟩
  · rw [if_pos (by rw [hany]; exact hx)]
    exact ⟨by simp, fun h => absurd h.1 hx⟩

/-- **C78**: exactly the vectors with coefficients in [−10242, 2046] survive encoding and decoding. -/
theorem C78_roundtrip (logn maxOut : Nat) (x : List Int) (hl : x.length = 2 ^ logn) (y rest : Bytes) (hr : IsBytes rest) (h : compEncode16 maxOut x logn = some y) :
    compDecode16 logn (y ++ rest) = .ok x ↔ ∀ c ∈ x, -10242 ≤ c ∧ c ≤ 2046 := by
  obtain ⟨h1, h2, rfl⟩ := (C78_comp_encode16 logn maxOut x hl y).1 h
  have hlt : ∀ v ∈ x.map (fun c : Int => (c % 12289).toNat), v < 12289 := by
    intro v hv
    obtain ⟨c, _, rfl⟩ := List.mem_map.1 hv
    omega
  have hb : IsBytes (be16 (x.map fun c : Int => (c % 12289).toNat) ++ rest) := by
    intro b hb
    rcases List.mem_append.1 hb with hb | hb
    · exact be16_bytes _ (fun w hw => by have := hlt w hw; omega) b hb
    · exact hr b hb
  have hval : compDecode16 logn (be16 (x.map fun c : Int => (c % 12289).toNat) ++ rest) = .ok ((x.map fun c : Int => (c % 12289).toNat).map value16) := by
    rw [(C78_comp_decode16 logn _ hb _).1]
    exact ⟨_, rest, rfl, by simp [hl], fun w hw => Or.inl (hlt w hw), rfl⟩
  rw [hval, Except.ok.injEq, List.map_map]
  have key : ∀ c : Int, -12288 ≤ c → c ≤ 12288 → (value16 (c % 12289).toNat = c ↔ -10242 ≤ c ∧ c ≤ 2046) := by
    intro c h1 h2
    unfold value16
    split
    · omega
    · split <;> omega
  constructor
  · intro e c hc
    have h3 := h1 c hc
    rw [← key c h3.1 h3.2]
    have : ∀ d ∈ x, (value16 ∘ fun c : Int => (c % 12289).toNat) d = id d := by
      apply List.map_inj_left.1
      rw [List.map_id]
      exact e
    exact this c hc
  · intro hx
    have : x.map (value16 ∘ fun c : Int => (c % 12289).toNat) = x.map id :=
      List.map_congr_left fun c hc => (key c (h1 c hc).1 (h1 c hc).2).2 (hx c hc)
    rw [this, List.map_id]

/-- **C78**, the boundary: the coefficient 2047, which the compressed format carries, comes back as −10242. -/
theorem C78_boundary_false : compEncode16 2 [2047] 0 = some [7, 255] ∧ compDecode16 0 [7, 255] = .ok [-10242] ∧ (compEncode (some 4) [2047]).isSome := by
  decide +kernel

/-- **C78**, the encoding is not unique: every word from 32768 on is read as a negative number without any reduction, so a vector with a coefficient in [−10242, −1] has a second encoding.
Any single word may be replaced: whatever the other words are, `w` and `w + 53247` decode alike for every `w` from 2047 to 12288. -/
theorem C78_malleable (logn : Nat) (pre post : List Nat) (w : Nat) (rest : Bytes) (hr : IsBytes rest) (x : List Int)
    (hl : (pre ++ w :: post).length = 2 ^ logn) (hw : 2047 ≤ w ∧ w < 12289) (hp : ∀ v ∈ pre ++ post, v < 65536)
    (h : compDecode16 logn (be16 (pre ++ w :: post) ++ rest) = .ok x) :
    be16 (pre ++ w :: post) ++ rest ≠ be16 (pre ++ (w + 53247) :: post) ++ rest ∧ compDecode16 logn (be16 (pre ++ (w + 53247) :: post) ++ rest) = .ok x := by
  have hm : ∀ u, u < 65536 → ∀ v ∈ pre ++ u :: post, v < 65536 := by
    intro u hu v hv
    rcases List.mem_append.1 hv with hv | hv
    · exact hp v (List.mem_append_left _ hv)
    · rcases List.mem_cons.1 hv with rfl | hv
      · exact hu
      · exact hp v (List.mem_append_right _ hv)
  have hbytes : ∀ u, u < 65536 → IsBytes (be16 (pre ++ u :: post) ++ rest) := by
    intro u hu b hb
    rcases List.mem_append.1 hb with hb | hb
    · exact be16_bytes _ (hm u hu) b hb
    · exact hr b hb
  have inj : ∀ a b : List Nat, (∀ v ∈ a, v < 65536) → (∀ v ∈ b, v < 65536) → be16 a = be16 b → a = b := by
    intro a
    induction a with
    | nil => intro b _ _ e; cases b with
      | nil => rfl
      | cons v b => cases e
    | cons u a ih =>
      intro b ha hb e
      cases b with
      | nil => cases e
      | cons v b =>
        have e1 : be16 (u :: a) = (u / 256) :: (u % 256) :: be16 a := rfl
        have e2 : be16 (v :: b) = (v / 256) :: (v % 256) :: be16 b := rfl
        rw [e1, e2] at e
        simp only [List.cons.injEq] at e
        rw [ih b (fun z hz => ha z (by simp [hz])) (fun z hz => hb z (by simp [hz])) e.2.2]
        congr 1
        omega
  obtain ⟨ws, r2, e1, e2, e3, e4⟩ := (C78_comp_decode16 logn _ (hbytes w (by omega)) x).1.1 h
  have hlen : (be16 (pre ++ w :: post)).length = (be16 ws).length := by rw [be16_length, be16_length, hl, e2]
  obtain ⟨f1, rfl⟩ := List.append_inj e1 hlen
  have f2 := inj _ _ (hm w (by omega)) (fun v hv => by have := e3 v hv; omega) f1
  subst f2
  constructor
  · intro e
    have := inj _ _ (hm w (by omega)) (hm (w + 53247) (by omega)) (List.append_cancel_right e)
    have := List.append_cancel_left this
    simp at this
  · rw [(C78_comp_decode16 logn _ (hbytes (w + 53247) (by omega)) x).1]
    refine ⟨_, rest, rfl, by simpa using hl, ?_, ?_⟩
    · intro v hv
      rcases List.mem_append.1 hv with hv | hv
      · exact e3 v (List.mem_append_left _ hv)
      · rcases List.mem_cons.1 hv with rfl | hv
        · omega
        · exact e3 v (List.mem_append_right _ (List.mem_cons_of_mem _ hv))
    · rw [e4]
      simp only [List.map_append, List.map_cons]
      have : value16 w = value16 (w + 53247) := by
        unfold value16
        rw [if_neg (by omega), if_pos hw.2, if_neg (by omega), if_neg (by omega)]
        push_cast
        ring
      rw [this]

example : compDecode16 1 [0, 5, 0x30, 0x00] = .ok [5, -1] ∧ compDecode16 1 [0, 5, 0xFF, 0xFF] = .ok [5, -1] ∧ compDecode16 1 [0, 5, 0x30, 0x01] = .error .valueError ∧
    compDecode16 1 [0, 5, 0xFF] = .error .valueError := by decide +kernel

example : modqEncodeW 14 7 [1, 12288, 0, 7] 2 = some [0, 7, 0, 0, 0, 0, 7] ∧ modqDecodeW 14 2 [0, 7, 0, 0, 0, 0, 7] = .ok [1, 12288, 0, 7] ∧
    modqDecodeW 14 2 [0, 7, 1, 0, 0, 0, 7] ≠ .ok [1, 12288, 0, 7] := by decide +kernel

example : trimEncodeT 256 3 [-31, 31, 0, -1] 2 6 = some [0x85, 0xF0, 0x3F] ∧ trimDecodeT 256 2 6 [0x85, 0xF0, 0x3F] = .ok [-31, 31, 0, -1] ∧
    trimDecodeT 256 2 6 [0x80, 0, 0] = .error .valueError := by decide +kernel

example : compEncode (some 3) [5, -200] = some [0x05, 0xE4, 0x20] ∧ compDecode 1 [0x05, 0xE4, 0x20, 9] = some ([5, -200], 3) ∧
    compDecode 1 [0x05, 0xE4, 0x21] = none ∧ compEncode (some 2) [5, -200] = none := by decide +kernel

end Verif.CRef
