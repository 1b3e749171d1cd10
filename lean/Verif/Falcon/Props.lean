import Verif.Falcon.Lib

/-! # Signing and verification in Python: C25 to C29 -/

namespace Verif.Falcon

open Verif Verif.Ring Verif.Hash Verif.Encoding.Spec

variable {S : Type}

/-- `verify` returns `b`. -/
def VerifyReturns (P : PolyLib) (X : Xof S) (n bound bytelen : Nat) (pk : List Int) (message sig : Bytes) (b : Bool) : Prop :=
  ∃ fuel, verify P X n bound bytelen pk message sig fuel = some (.ok b)

/-- `verify` raises `e`. -/
def VerifyRaises (P : PolyLib) (X : Xof S) (n bound bytelen : Nat) (pk : List Int) (message sig : Bytes) (e : Err) : Prop :=
  ∃ fuel, verify P X n bound bytelen pk message sig fuel = some (.error e)

/-- the salt field: bytes 1 to 40 -/
def saltOf (sig : Bytes) : Bytes := (sig.drop 1).take 40

/-- The body of the signature (everything after header and salt) encodes the `n` integers `s1`, in at most the allotted number of bytes. -/
def Encodes (n bytelen : Nat) (sig : Bytes) (s1 : List Int) : Prop :=
  sig.length - 41 ≤ bytelen - 41 ∧ s1.length = n ∧ code s1 <+: bytesBits (sig.drop 41)

theorem decompress_encodes (n bytelen : Nat) (hn : 0 < n) (sig : Bytes) (s1 : List Int) :
    Encoding.decompress (sig.drop (1 + 40)) (bytelen - 1 - 40) n = .ok (some s1) ↔ Encodes n bytelen sig s1 := by
  rw [Encoding.decompress_accepts_iff _ _ _ (by omega), List.length_drop]
  rfl

theorem hash_length {X : Xof S} {n : Nat} {message salt : Bytes} {out : List Nat} (h : Returns X n message salt out) : out.length = n := by
  obtain ⟨fuel, h⟩ := h
  unfold hashToPoint at h
  split at h
  · cases h
  · rename_i s _
    have key : ∀ (fuel : Nat) (s : S) (i : Nat) (l : List Nat), hashLoop X n fuel s i l = some (.ok out) → out.length = l.length := by
      intro fuel
      induction fuel with
      | zero => intro s i l h; cases h
      | succ fuel ih =>
        intro s i l h
        unfold hashLoop at h
        split at h
        · split at h
          · cases h
          · dsimp only at h
            split at h
            · rw [ih _ _ _ h, List.length_set]
            · exact ih _ _ _ h
        · cases h; rfl
    rw [key _ _ _ _ h, List.length_replicate]

theorem hashLoop_mono (X : Xof S) (n : Nat) (r : Except Err (List Nat)) (k : Nat) : ∀ (fuel : Nat) (s : S) (i : Nat) (l : List Nat),
    hashLoop X n fuel s i l = some r → hashLoop X n (fuel + k) s i l = some r := by
  intro fuel
  induction fuel with
  | zero => intro s i l h; cases h
  | succ fuel ih =>
    intro s i l h
    rw [show fuel + 1 + k = (fuel + k) + 1 by omega]
    unfold hashLoop at h ⊢
    by_cases hi : i < n
    · rw [if_pos hi] at h ⊢
      cases hx : X.read s 2 with
      | error e => rw [hx] at h; exact h
      | ok p =>
        rw [hx] at h
        dsimp only at h ⊢
        split at h
        · rename_i h'; rw [if_pos h']; exact ih _ _ _ h
        · rename_i h'; rw [if_neg h']; exact ih _ _ _ h
    · rw [if_neg hi] at h ⊢; exact h

theorem hashToPoint_mono (X : Xof S) (n : Nat) (message salt : Bytes) (r : Except Err (List Nat)) (fuel k : Nat)
    (h : hashToPoint X n message salt fuel = some r) : hashToPoint X n message salt (fuel + k) = some r := by
  unfold hashToPoint at h ⊢
  split
  · rename_i h'; rw [h'] at h; exact h
  · rename_i h'; rw [h'] at h; exact hashLoop_mono X n r k _ _ _ _ h

/-- the part of `verify` after decoding and hashing -/
theorem norm_check {P : PolyLib} {n : Nat} (A : Arith P n) (hn : 0 < n) (pk hashed s1 : List Int) (bound : Nat) (hpk : pk.length = n)
    (hh : hashed.length = n) (h1 : s1.length = n) :
    sumSq ((P.sub hashed (P.mul s1 pk)).map centre) + sumSq s1 ≤ bound ↔
      ∃ s0, IsPreimage n pk hashed s0 s1 ∧ normSq s0 + normSq s1 ≤ bound := by
  obtain ⟨lm, em⟩ := A.mul s1 pk h1 hpk
  obtain ⟨ls, es⟩ := A.sub hashed (P.mul s1 pk) hh lm
  have e : ev (rt Zq n) (zq (P.sub hashed (P.mul s1 pk))) = ev (rt Zq n) hashed - ev (rt Zq n) s1 * ev (rt Zq n) pk := by
    rw [es, ev_zipWith_sub _ n _ _ (by simpa using hh) (by simpa using lm), em,
      ev_negMul _ n (rt_pow n) _ _ (by simpa using h1) (by simpa using hpk), ev_zq, ev_zq, ev_zq]
  rw [sumSq_eq, sumSq_eq]
  constructor
  · intro h
    refine ⟨_, ?_, h⟩
    rw [isPreimage_iff n hn _ _ _ _ hpk hh]
    refine ⟨by simpa using ls, h1, ?_⟩
    rw [← ev_zq (A := Aq n), zq_centre, e]; ring
  · rintro ⟨s0, hp, hb⟩
    rw [isPreimage_iff n hn _ _ _ _ hpk hh] at hp
    obtain ⟨l0, _, e0⟩ := hp
    refine le_trans (add_le_add_left (normSq_centre_le s0 _ ?_) _) hb
    apply list_eq_of_ev n hn _ _ (by simpa using l0) (by simpa using ls)
    rw [e, ev_zq, ← e0]; ring

/-! ## C25 -/

/-- **C25**: `verify` returns `True` exactly when the body of the signature encodes `n` integers `s1`, the message hashes to a point `c`, and
some integer `s0` with `s0 + s1*h = c` in `Z_q[x]/(x^n+1)` makes `(s0, s1)` short. -/
theorem C25_accepts_iff (P : PolyLib) (X : Xof S) (n bound bytelen : Nat) (hn : 0 < n) (A : Arith P n) (pk : List Int) (hpk : pk.length = n)
    (message sig : Bytes) :
    VerifyReturns P X n bound bytelen pk message sig true ↔
      ∃ s1 c, Encodes n bytelen sig s1 ∧ Returns X n message (saltOf sig) c ∧
        ∃ s0, IsPreimage n pk (List.map (fun x : Nat => (x : Int)) c) s0 s1 ∧ normSq s0 + normSq s1 ≤ bound := by
  constructor
  · rintro ⟨fuel, h⟩
    unfold verify at h
    dsimp only at h
    split at h
    · cases h
    · cases h
    · rename_i s1 hd
      split at h
      · cases h
      · cases h
      · rename_i c hc
        split at h
        · cases h
        · rename_i hb
          have hd' := (decompress_encodes n bytelen hn sig s1).1 hd
          refine ⟨s1, c, hd', ⟨fuel, hc⟩, ?_⟩
          rw [← norm_check A hn pk _ s1 bound hpk (by simpa using hash_length ⟨fuel, hc⟩) hd'.2.1]
          exact not_lt.1 hb
  · rintro ⟨s1, c, hd, ⟨fuel, hc⟩, hs⟩
    refine ⟨fuel, ?_⟩
    rw [← norm_check A hn pk _ s1 bound hpk (by simpa using hash_length ⟨fuel, hc⟩) hd.2.1] at hs
    unfold verify
    dsimp only
    rw [(decompress_encodes n bytelen hn sig s1).2 hd]
    dsimp only
    rw [show (sig.drop 1).take 40 = saltOf sig from rfl, hc]
    dsimp only
    rw [if_neg (not_lt.2 hs)]

/-- **C25**: `verify` returns `False` exactly when the body does not decode (and decoding does not raise), or the message hashes to a point all of whose
preimages with this `s1` are too long. -/
theorem C25_rejects_iff (P : PolyLib) (X : Xof S) (n bound bytelen : Nat) (hn : 0 < n) (A : Arith P n) (pk : List Int) (hpk : pk.length = n)
    (message sig : Bytes) :
    VerifyReturns P X n bound bytelen pk message sig false ↔
      Encoding.decompress (sig.drop 41) (bytelen - 41) n = .ok none ∨
      ∃ s1 c, Encodes n bytelen sig s1 ∧ Returns X n message (saltOf sig) c ∧
        ∀ s0, IsPreimage n pk (List.map (fun x : Nat => (x : Int)) c) s0 s1 → bound < normSq s0 + normSq s1 := by
  constructor
  · rintro ⟨fuel, h⟩
    unfold verify at h
    dsimp only at h
    split at h
    · cases h
    · rename_i hd; exact Or.inl hd
    · rename_i s1 hd
      split at h
      · cases h
      · cases h
      · rename_i c hc
        split at h
        · rename_i hb
          have hd' := (decompress_encodes n bytelen hn sig s1).1 hd
          refine Or.inr ⟨s1, c, hd', ⟨fuel, hc⟩, ?_⟩
          intro s0 hs0
          by_contra hlt
          have := (norm_check A hn pk _ s1 bound hpk (by simpa using hash_length ⟨fuel, hc⟩) hd'.2.1).2 ⟨s0, hs0, not_lt.1 hlt⟩
          exact absurd hb (not_lt.2 this)
        · cases h
  · rintro (hd | ⟨s1, c, hd, ⟨fuel, hc⟩, hs⟩)
    · refine ⟨0, ?_⟩
      unfold verify
      dsimp only
      rw [show Encoding.decompress (sig.drop (1 + 40)) (bytelen - 1 - 40) n = .ok none from hd]
    · refine ⟨fuel, ?_⟩
      unfold verify
      dsimp only
      rw [(decompress_encodes n bytelen hn sig s1).2 hd]
      dsimp only
      rw [show (sig.drop 1).take 40 = saltOf sig from rfl, hc]
      dsimp only
      rw [if_pos]
      by_contra hlt
      obtain ⟨s0, k1, k2⟩ := (norm_check A hn pk _ s1 bound hpk (by simpa using hash_length ⟨fuel, hc⟩) hd.2.1).1 (not_lt.1 hlt)
      exact absurd (hs s0 k1) (not_lt.2 k2)

/-- **C25**: strings that are too long are rejected (for every key, message, library), and strings of at most 41 bytes make `verify` raise. -/
theorem C25_lengths (P : PolyLib) (X : Xof S) (n bound bytelen : Nat) (hb : 41 ≤ bytelen) (pk : List Int) (message sig : Bytes) :
    (bytelen < sig.length → VerifyReturns P X n bound bytelen pk message sig false) ∧
    (sig.length ≤ 41 → VerifyRaises P X n bound bytelen pk message sig .indexError) := by
  constructor
  · intro h
    refine ⟨0, ?_⟩
    unfold verify
    dsimp only
    rw [show Encoding.decompress (sig.drop (1 + 40)) (bytelen - 1 - 40) n = .ok none from ?_]
    unfold Encoding.decompress
    rw [if_pos (by simp; omega)]
  · intro h
    refine ⟨0, ?_⟩
    unfold verify
    dsimp only
    rw [show Encoding.decompress (sig.drop (1 + 40)) (bytelen - 1 - 40) n = .error .indexError from ?_]
    rw [List.drop_eq_nil_of_le (by omega), Encoding.decompress_raises_iff]
    exact ⟨by simp, Or.inl ⟨rfl, by intro x hx; cases hx⟩⟩

/-! ## C26 -/

/-- **C26 is false**: the header byte is not read. Every accepted string stays accepted, for the same key and message, whatever its first byte is replaced by. -/
theorem C26_header_ignored (P : PolyLib) (X : Xof S) (n bound bytelen : Nat) (pk : List Int) (message body : Bytes) (h h' : Nat) (fuel : Nat) :
    verify P X n bound bytelen pk message (h :: body) fuel = verify P X n bound bytelen pk message (h' :: body) fuel := rfl

/-- **C26 is false**: the bits after the last code word are not read either, and the string may be cut after it. -/
theorem C26_tail_ignored (P : PolyLib) (X : Xof S) (n bound bytelen : Nat) (hn : 0 < n) (A : Arith P n) (pk : List Int) (hpk : pk.length = n)
    (message sig sig' : Bytes) (s1 : List Int) (he : Encodes n bytelen sig s1)
    (h : VerifyReturns P X n bound bytelen pk message sig true) (hl : sig'.length - 41 ≤ bytelen - 41) (hs : saltOf sig' = saltOf sig)
    (ht : (bytesBits (sig'.drop 41)).take (codeLength s1) = (bytesBits (sig.drop 41)).take (codeLength s1)) :
    VerifyReturns P X n bound bytelen pk message sig' true := by
  rw [C25_accepts_iff P X n bound bytelen hn A pk hpk] at h ⊢
  obtain ⟨t1, c, h1, h2, h3⟩ := h
  have d1 := (decompress_encodes n bytelen hn sig s1).2 he
  have d2 := (decompress_encodes n bytelen hn sig t1).2 h1
  obtain rfl : s1 = t1 := by rw [d1] at d2; simpa using d2
  refine ⟨s1, c, ⟨hl, he.2.1, ?_⟩, hs ▸ h2, h3⟩
  have := he.2.2
  rw [List.prefix_iff_eq_take, Encoding.codeLength_eq] at this ⊢
  rw [ht]; exact this

/-- **C26, what remains true**: among strings with the same header, length and salt, and only zero bits after the code words, an accepted string is determined by `s1`. -/
theorem C26_canonical_partial (n bytelen : Nat) (sig sig' : Bytes) (hb : IsBytes sig) (hb' : IsBytes sig')
    (hl : sig.length = sig'.length) (hh : sig.take 1 = sig'.take 1) (hs : saltOf sig = saltOf sig') (s1 : List Int)
    (h : Encodes n bytelen sig s1) (h' : Encodes n bytelen sig' s1)
    (hz : ∀ b ∈ (bytesBits (sig.drop 41)).drop (codeLength s1), b = false) (hz' : ∀ b ∈ (bytesBits (sig'.drop 41)).drop (codeLength s1), b = false) :
    sig = sig' := by
  have hd : sig.drop 41 = sig'.drop 41 := by
    apply bytesBits_inj (fun b hb1 => hb b (List.mem_of_mem_drop hb1)) (fun b hb1 => hb' b (List.mem_of_mem_drop hb1))
    have h3 := h.2.2
    have h4 := h'.2.2
    rw [List.prefix_iff_eq_take, Encoding.codeLength_eq] at h3 h4
    rw [← List.take_append_drop (codeLength s1) (bytesBits (sig.drop 41)), ← List.take_append_drop (codeLength s1) (bytesBits (sig'.drop 41)), ← h3, ← h4]
    congr 1
    apply List.ext_getElem (by simp [hl])
    intro i h1 h2
    rw [hz _ (List.getElem_mem h1), hz' _ (List.getElem_mem h2)]
  have key : ∀ l : Bytes, l = l.take 1 ++ (saltOf l ++ l.drop 41) := by
    intro l
    unfold saltOf
    rw [show l.drop 41 = (l.drop 1).drop 40 by rw [List.drop_drop], List.take_append_drop, List.take_append_drop]
  rw [key sig, key sig', hh, hs, hd]

/-! ## C27, C28, C29 -/

/-- `sign` returns `sig`, with salt `salt`, when iteration `k` of the loop samples the pair `attempt c k` for the point `c`. -/
def SignReturns (X : Xof S) (n bound bytelen : Nat) (salt message : Bytes) (attempt : List Int → Nat → List Int × List Int) (sig : Bytes) : Prop :=
  ∃ fuel, sign X n bound bytelen salt message attempt fuel = some (.ok sig)

/-- A pair is good: short enough, and the encoding of its second half fits. -/
def Good (bound bytelen : Nat) (s : List Int × List Int) : Prop := normSq s.1 + normSq s.2 ≤ bound ∧ codeLength s.2 ≤ 8 * (bytelen - 41)

theorem signLoop_iff (attempt : Nat → List Int × List Int) (bound bytelen : Nat) (pre sig : Bytes) : ∀ (fuel k : Nat),
    signLoop attempt bound (bytelen - 41) pre fuel k = some sig ↔
      ∃ j, j < fuel ∧ (∀ i < j, ¬ Good bound bytelen (attempt (k + i))) ∧ Good bound bytelen (attempt (k + j)) ∧
        ∃ enc, IsBytes enc ∧ enc.length = bytelen - 41 ∧ ZeroPadded enc (code (attempt (k + j)).2) ∧ sig = pre ++ enc := by
  intro fuel
  induction fuel with
  | zero => intro k; simp [signLoop]
  | succ fuel ih =>
    intro k
    have step : signLoop attempt bound (bytelen - 41) pre (fuel + 1) k =
        if sumSq (attempt k).1 + sumSq (attempt k).2 ≤ bound then
          match Encoding.compress (attempt k).2 (bytelen - 41) with
          | some encS => some (pre ++ encS)
          | none => signLoop attempt bound (bytelen - 41) pre fuel (k + 1)
        else signLoop attempt bound (bytelen - 41) pre fuel (k + 1) := rfl
    rw [sumSq_eq, sumSq_eq] at step
    obtain ⟨c1, c2⟩ := Encoding.compress_fits_iff (attempt k).2 (bytelen - 41)
    have cont : (¬ Good bound bytelen (attempt k)) → signLoop attempt bound (bytelen - 41) pre (fuel + 1) k = signLoop attempt bound (bytelen - 41) pre fuel (k + 1) := by
      intro hg
      rw [step]
      split
      · rename_i h1
        rw [c1.2 (by by_contra h; exact hg ⟨h1, by omega⟩)]
      · rfl
    by_cases hg : Good bound bytelen (attempt k)
    · rw [step, if_pos hg.1]
      cases hc : Encoding.compress (attempt k).2 (bytelen - 41) with
      | none => have := c1.1 hc; have := hg.2; omega
      | some enc =>
        obtain ⟨d1, d2, d3, d4⟩ := (c2 enc).1 hc
        constructor
        · intro h
          simp only [Option.some.injEq] at h
          exact ⟨0, by omega, by intro i hi; omega, hg, enc, d2, d3, d4, h.symm⟩
        · rintro ⟨j, hj, h1, h2, enc', e1, e2, e3, e4⟩
          have hj0 : j = 0 := by
            by_contra hne
            exact h1 0 (by omega) hg
          subst hj0
          have := (c2 enc').2 ⟨d1, e1, e2, e3⟩
          rw [hc, Option.some.injEq] at this
          simp only [this, e4]
    · rw [cont hg, ih (k + 1)]
      constructor
      · rintro ⟨j, hj, h1, h2⟩
        refine ⟨j + 1, by omega, ?_, by rw [show k + (j + 1) = k + 1 + j by omega]; exact h2⟩
        intro i hi
        cases i with
        | zero => exact hg
        | succ i => rw [show k + (i + 1) = k + 1 + i by omega]; exact h1 i (by omega)
      · rintro ⟨j, hj, h1, h2⟩
        cases j with
        | zero => exact absurd h2.1 hg
        | succ j =>
          refine ⟨j, by omega, ?_, by rw [show k + 1 + j = k + (j + 1) by omega]; exact h2⟩
          intro i hi
          rw [show k + 1 + i = k + (i + 1) by omega]
          exact h1 (i + 1) (by omega)

/-- **C29**: `sign` returns `sig` exactly when the message hashes to some point, the pair of some iteration `j` is short enough and fits, every earlier pair
failed one of the two tests, and `sig` is header, salt, and the zero-padded encoding of the second half of pair `j`. -/
theorem C29_first_good (X : Xof S) (n bound bytelen : Nat) (salt message : Bytes) (attempt : List Int → Nat → List Int × List Int) (sig : Bytes) :
    SignReturns X n bound bytelen salt message attempt sig ↔
      ∃ c, Returns X n message salt c ∧ ∃ j, (∀ i < j, ¬ Good bound bytelen (attempt (List.map (fun x : Nat => (x : Int)) c) i)) ∧
        Good bound bytelen (attempt (List.map (fun x : Nat => (x : Int)) c) j) ∧
        ∃ enc, IsBytes enc ∧ enc.length = bytelen - 41 ∧ ZeroPadded enc (code (attempt (List.map (fun x : Nat => (x : Int)) c) j).2) ∧
          sig = (0x20 + logn n) :: salt ++ enc := by
  constructor
  · rintro ⟨fuel, h⟩
    unfold sign at h
    dsimp only at h
    split at h
    · cases h
    · cases h
    · rename_i c hc
      split at h
      · cases h
      · rename_i sg hs
        simp only [Option.some.injEq, Except.ok.injEq] at h
        subst h
        obtain ⟨j, _, h1, h2, h3⟩ := (signLoop_iff _ _ _ _ _ _ _).1 (show signLoop _ bound (bytelen - 41) _ fuel 0 = some sg from hs)
        simp only [Nat.zero_add] at h1 h2 h3
        exact ⟨c, ⟨fuel, hc⟩, j, h1, h2, h3⟩
  · rintro ⟨c, ⟨fuel, hc⟩, j, h1, h2, h3⟩
    refine ⟨fuel + (j + 1), ?_⟩
    unfold sign
    dsimp only
    rw [hashToPoint_mono X n message salt _ fuel (j + 1) hc]
    dsimp only
    have := (signLoop_iff (attempt (List.map (fun x : Nat => (x : Int)) c)) bound bytelen ((0x20 + logn n) :: salt) sig (fuel + (j + 1)) 0).2
      ⟨j, by omega, by simpa using h1, by simpa using h2, by simpa using h3⟩
    rw [show bytelen - 1 - 40 = bytelen - 41 by omega]
    rw [show [0x20 + logn n] ++ salt = (0x20 + logn n) :: salt from rfl, this]

/-- **C28**: for every parameter set, a returned signature is a byte string of exactly `sig_bytelen` bytes: `0x20 + log2(n)`, the 40 bytes of the salt, the body. -/
theorem C28_format (X : Xof S) (n bound bytelen : Nat) (hpar : params n = some (bound, bytelen)) (salt message : Bytes)
    (hs : salt.length = 40) (hsb : IsBytes salt)
    (attempt : List Int → Nat → List Int × List Int) (sig : Bytes) (h : SignReturns X n bound bytelen salt message attempt sig) :
    IsBytes sig ∧ sig.length = bytelen ∧ (∃ k, n = 2 ^ k ∧ 1 ≤ k ∧ k ≤ 10 ∧ sig.head? = some (32 + k)) ∧ saltOf sig = salt := by
  obtain ⟨c, _, j, _, _, enc, e1, e2, _, rfl⟩ := (C29_first_good X n bound bytelen salt message attempt sig).1 h
  have hp : (∃ k, n = 2 ^ k ∧ 1 ≤ k ∧ k ≤ 10 ∧ logn n = k) ∧ 41 ≤ bytelen := by
    unfold params at hpar
    split at hpar
    all_goals first
      | (cases hpar; done)
      | (simp only [Option.some.injEq, Prod.mk.injEq] at hpar
         obtain ⟨_, rfl⟩ := hpar
         refine ⟨?_, by decide⟩)
    · exact ⟨1, by decide⟩
    · exact ⟨2, by decide⟩
    · exact ⟨3, by decide⟩
    · exact ⟨4, by decide⟩
    · exact ⟨5, by decide⟩
    · exact ⟨6, by decide⟩
    · exact ⟨7, by decide⟩
    · exact ⟨8, by decide⟩
    · exact ⟨9, by decide⟩
    · exact ⟨10, by decide⟩
  obtain ⟨⟨k, k1, k2, k3, k4⟩, hb⟩ := hp
  refine ⟨?_, ?_, ⟨k, k1, k2, k3, by rw [k4]; rfl⟩, ?_⟩
  · intro b hb
    simp only [List.cons_append, List.mem_cons, List.mem_append] at hb
    rcases hb with rfl | hb | hb
    · omega
    · exact hsb b hb
    · exact e1 b hb
  · simp [hs, e2]; omega
  · unfold saltOf
    simp [hs]

/-- **C27**: whatever integer vectors the sampler returns, every signature produced with a key is accepted by `verify` under the matching public key, for the same
message and hash function. (`IsKey` is what key generation guarantees: C16, C59.) -/
theorem C27_sign_verify (P : PolyLib) (X : Xof S) (n bound bytelen : Nat) (hpar : params n = some (bound, bytelen)) (A : Arith P n) (sk : SecretKey) (K : IsKey n sk)
    (salt message : Bytes) (hs : salt.length = 40) (hsb : IsBytes salt) (z : List Int → Nat → List Int × List Int)
    (hz : ∀ c k, (z c k).1.length = n ∧ (z c k).2.length = n) (sig : Bytes)
    (h : SignReturns X n bound bytelen salt message (fun c k => samplePreimage n sk c (z c k)) sig) :
    VerifyReturns P X n bound bytelen sk.h message sig true := by
  obtain ⟨_, f1, ⟨k, k1, _, _, _⟩, f2⟩ := C28_format X n bound bytelen hpar salt message hs hsb _ sig h
  have hn : 0 < n := by rw [k1]; exact Nat.two_pow_pos k
  obtain ⟨c, hc, j, _, hg, enc, e1, e2, ⟨m, e3⟩, e4⟩ := (C29_first_good X n bound bytelen salt message _ sig).1 h
  rw [C25_accepts_iff P X n bound bytelen hn A _ K.lh]
  have hp := samplePreimage_isPreimage n hn sk K (List.map (fun x : Nat => (x : Int)) c) (by simpa using hash_length hc) (z (List.map (fun x : Nat => (x : Int)) c) j)
    (hz _ _).1 (hz _ _).2
  refine ⟨_, c, ⟨by omega, hp.2.1, ?_⟩, f2.symm ▸ hc, _, hp, hg.1⟩
  have : sig.drop 41 = enc := by
    rw [e4, show ((0x20 + logn n) :: salt ++ enc) = ((0x20 + logn n) :: salt) ++ enc from rfl, List.drop_left' (by simp [hs])]
  rw [this, e3]
  exact List.prefix_append _ _

/-! ## Non-vacuity: dimension 2, real SHAKE, a real key -/

/-- the library of the examples -/
def toyLib : PolyLib := lib 2

theorem toyArith : Arith toyLib 2 := libArith 1 (by decide) (by decide)

def toyKey : SecretKey := ⟨[1, 0], [111, 0], [-111, 0], [-32, 0], [111, 0]⟩

theorem toyIsKey : IsKey 2 toyKey where
  lf := rfl
  lg := rfl
  lF := rfl
  lG := rfl
  lh := rfl
  ntru := by decide
  pub := by decide
  unit := ⟨[1, 0], rfl, by decide⟩

/-- the salt and the hash of the example message -/
def toySalt : Bytes := List.replicate 40 7

set_option maxRecDepth 100000 in
theorem toyHash : Returns shakeXof 2 [1, 2, 3] toySalt [2911, 11423] := ⟨10, by decide +kernel⟩

/-- the sampler of the example: a long vector first, then the closest one -/
def toyZ (_ : List Int) (k : Nat) : List Int × List Int := if k = 0 then ([0, 0], [0, 0]) else ([26, 103], [0, 1])

def toySig : Bytes := 33 :: toySalt ++ [26, 196, 64]

theorem toySign : SignReturns shakeXof 2 101498 44 toySalt [1, 2, 3] (fun c k => samplePreimage 2 toyKey c (toyZ c k)) toySig := by
  rw [C29_first_good]
  refine ⟨_, toyHash, 1, ?_, ?_, [26, 196, 64], by decide, rfl, ⟨6, by decide⟩, by decide⟩
  · intro i hi
    obtain rfl : i = 0 := by omega
    unfold Good; decide
  · unfold Good; decide

/-- C27, C28, C29, C25 apply to a concrete signature. -/
example : VerifyReturns toyLib shakeXof 2 101498 44 toyKey.h [1, 2, 3] toySig true :=
  C27_sign_verify toyLib shakeXof 2 101498 44 rfl toyArith toyKey toyIsKey toySalt [1, 2, 3] rfl (by decide) toyZ
    (by intro c k; unfold toyZ; split <;> decide) toySig toySign

/-- **C26 witness**: two different strings are accepted for the same key, message, salt and `s1`. -/
theorem C26_witness : ∃ (P : PolyLib) (pk : List Int) (sig sig' sig'' : Bytes), Arith P 2 ∧ IsBytes sig ∧ IsBytes sig' ∧ IsBytes sig'' ∧ sig ≠ sig' ∧
    sig.head? = sig''.head? ∧ sig ≠ sig'' ∧
    VerifyReturns P shakeXof 2 101498 44 pk [1, 2, 3] sig true ∧ VerifyReturns P shakeXof 2 101498 44 pk [1, 2, 3] sig' true ∧
    VerifyReturns P shakeXof 2 101498 44 pk [1, 2, 3] sig'' true := by
  have h := C27_sign_verify toyLib shakeXof 2 101498 44 rfl toyArith toyKey toyIsKey toySalt [1, 2, 3] rfl (by decide) toyZ
    (by intro c k; unfold toyZ; split <;> decide) toySig toySign
  refine ⟨toyLib, toyKey.h, toySig, 0 :: toySalt ++ [26, 196, 64], 33 :: toySalt ++ [26, 196, 65], toyArith, by decide, by decide, by decide, by decide, by decide, by decide, h, h, ?_⟩
  refine C26_tail_ignored toyLib shakeXof 2 101498 44 (by decide) toyArith _ rfl _ toySig _ [26, -8] ⟨by decide, rfl, by decide⟩ h (by decide) (by decide) (by decide)

end Verif.Falcon
