import Verif.Epervier.Props

/-! # Key recovery in Python: C40, C41, and agreement with the contract: C65 -/

namespace Verif.Epervier

open Verif Verif.Ring Verif.Falcon Verif.Hash Verif.Encoding.Spec

/-! ### The address of a key -/

theorem spongeByte_lt (f : List Keccak.Lane → List Keccak.Lane) (rate ds : Nat) (m : Bytes) (k : Nat) : Keccak.Spec.spongeByte f rate ds m k < 256 := by
  unfold Keccak.Spec.spongeByte
  generalize Keccak.Spec.absorbBlocks f rate _ = s0
  generalize Nat.repeat f _ s0 = l
  have : ∀ x ∈ Keccak.Spec.lanesToBytes l, x < 256 := by
    intro x hx
    unfold Keccak.Spec.lanesToBytes at hx
    obtain ⟨w, _, hx⟩ := List.mem_flatMap.1 hx
    obtain ⟨k, _, rfl⟩ := List.mem_map.1 hx
    exact Nat.mod_lt _ (by norm_num)
  rw [List.getD_eq_getElem?_getD]
  cases h : (Keccak.Spec.lanesToBytes l)[k % rate]? with
  | none => simp
  | some v => exact this v (List.mem_of_getElem? h)

theorem squeeze_eq (b : Bytes) :
    (Keccak.squeeze Keccak.F1600 136 (Keccak.pad Keccak.F1600 136 0x01 (Keccak.absorb Keccak.F1600 136 Keccak.Ctx.new b)) 32).2 =
      Keccak.Spec.spongeOut Keccak.Spec.F 136 0x01 b 0 32 := by
  have := Keccak.C43_python 136 0x01 (by norm_num) (by norm_num) [b] [32]
  unfold Keccak.pyReads Keccak.slices Keccak.pyFlipped at this
  rw [List.foldl_cons, List.foldl_nil, List.flatten_cons, List.flatten_nil, List.append_nil] at this
  exact (List.cons.inj this).1

theorem last20 (out : Bytes) (hl : out.length = 32) (hb : IsBytes out) : Sol.word (out.drop (out.length - 20)) = Sol.word out % 2 ^ 160 := by
  rw [hl, show 32 - 20 = 12 by norm_num]
  conv_rhs => rw [← List.take_append_drop 12 out, word_append]
  have hd : (out.drop 12).length = 20 := by rw [List.length_drop, hl]
  have hlt := word_lt (out.drop 12) (fun x hx => hb x (List.mem_of_mem_drop hx))
  rw [hd] at hlt ⊢
  rw [show (256 : Nat) ^ 20 = 2 ^ 160 by norm_num] at hlt ⊢
  rw [Nat.add_comm, Nat.add_mul_mod_self_right, Nat.mod_eq_of_lt hlt]

/-- The Python hash of a vector of residues is the address of the specification. -/
theorem pyAddress_eq (l : List Int) (h : Reduced l) : pyAddress l = .ok (address (l.map Int.toNat)) := by
  unfold pyAddress packInts
  rw [if_neg]
  · dsimp only
    rw [show 200 - 512 / 8 = 136 by norm_num, squeeze_eq, last20]
    · unfold address
      rw [List.flatMap_map]
    · unfold Keccak.Spec.spongeOut; rw [List.length_map, List.length_range]
    · intro x hx
      unfold Keccak.Spec.spongeOut at hx
      obtain ⟨k, _, rfl⟩ := List.mem_map.1 hx
      exact spongeByte_lt _ _ _ _ _
  · intro hc
    obtain ⟨x, hx, hd⟩ := List.any_eq_true.1 hc
    have := h x hx
    have := of_decide_eq_true hd
    have : (12289 : Int) < 2 ^ 256 := by norm_num
    omega

/-! ### Modes -/

/-- What the two modes have in common: the representation of `s0` is irrelevant modulo `q`, and the vector hashed after recovery is the one hashed for the key. -/
structure ModeLaw (M : Mode) (P : PolyLib) (n : Nat) : Prop where
  pos : ∀ s, (M.pos s).length = s.length ∧ zq (M.pos s) = zq s
  fin : ∀ h, h.length = n → Reduced h → M.fin P (P.ntt h) = M.key P h
  red : ∀ h, h.length = n → Reduced h → Reduced (M.key P h)

theorem intt_ntt {P : PolyLib} {n : Nat} {w : Nat → ZMod 12289} (L : NttLaw P n w) (h : List Int) (hl : h.length = n) (hr : Reduced h) : P.intt (P.ntt h) = h := by
  have h1 := (L.ntt h hl).1
  exact reduced_eq (L.intt _ h1).2.1 hr (L.left h hl)

theorem ntt_intt {P : PolyLib} {n : Nat} {w : Nat → ZMod 12289} (L : NttLaw P n w) (v : List Int) (hl : v.length = n) (hr : Reduced v) : P.ntt (P.intt v) = v := by
  obtain ⟨h1, h2, h3⟩ := L.intt v hl
  exact reduced_eq (L.ntt _ h1).2.1 hr h3

theorem epervier_law {P : PolyLib} {n : Nat} {w : Nat → ZMod 12289} (L : NttLaw P n w) : ModeLaw epervier P n where
  pos := fun _ => ⟨rfl, rfl⟩
  fin := fun _ _ _ => rfl
  red := fun h hl _ => (L.ntt h hl).2.1

theorem recovery_law {P : PolyLib} {n : Nat} {w : Nat → ZMod 12289} (L : NttLaw P n w) : ModeLaw recoveryMode P n where
  pos := fun s => by
    refine ⟨by simp [recoveryMode], ?_⟩
    unfold zq recoveryMode
    dsimp only
    rw [List.map_map]
    apply List.map_congr_left
    intro x _
    dsimp only [Function.comp]
    split
    · rw [Int.cast_add, show ((12289 : Int) : ZMod 12289) = 0 from ZMod.natCast_self 12289, add_zero]
    · rfl
  fin := fun h hl hr => intt_ntt L h hl hr
  red := fun _ _ hr => hr

/-! ### Splitting a signature -/

/-- header and salt (41 bytes), body, the last `3 n` bytes -/
def body (n : Nat) (sig : Bytes) : Bytes := (sig.take (sig.length - 3 * n)).drop 41
/-- the hint: `n` three-byte big-endian numbers at the end of the signature -/
def hints (n : Nat) (sig : Bytes) : List Int := be24 (sig.drop (sig.length - 3 * n))

/-- The body of the signature encodes `s0` followed by `s1`. -/
def EncodesPair (n bytelen : Nat) (sig : Bytes) (s0 s1 : List Int) : Prop :=
  (body n sig).length ≤ 2 * bytelen - 41 ∧ s0.length = n ∧ s1.length = n ∧ code (s0 ++ s1) <+: bytesBits (body n sig)

theorem length_be24 : ∀ (k : Nat) (b : Bytes), b.length = 3 * k → (be24 b).length = k
  | 0, [], _ => rfl
  | k + 1, a :: b :: c :: r, h => by
    have := length_be24 k r (by simp at h; omega)
    simp [be24, this]
  | 0, _ :: _, h => by simp at h
  | k + 1, [], h => by simp at h
  | k + 1, [_], h => by simp at h; omega
  | k + 1, [_, _], h => by simp at h; omega

theorem length_hints (n : Nat) (sig : Bytes) (h : 3 * n ≤ sig.length) : (hints n sig).length = n := by
  unfold hints
  exact length_be24 n _ (by rw [List.length_drop]; omega)

theorem EncodesPair.long {n bytelen : Nat} {sig : Bytes} {s0 s1 : List Int} (hn : 0 < n) (h : EncodesPair n bytelen sig s0 s1) : 3 * n + 41 < sig.length := by
  obtain ⟨_, h2, h3, h4⟩ := h
  have hl := h4.length_le
  have : 0 < (bytesBits (body n sig)).length := by
    refine lt_of_lt_of_le ?_ hl
    cases s0 with
    | nil => simp at h2; omega
    | cons a s => simp [code, codeword]
  have hb : 0 < (body n sig).length := by
    by_contra hc
    have e : body n sig = [] := List.length_eq_zero_iff.1 (by omega)
    rw [e] at this
    simp [bytesBits] at this
  unfold body at hb
  rw [List.length_drop, List.length_take] at hb
  omega

/-- `pyRecover` returns `r` (`none`: the Boolean `False`). -/
def PyRecoverReturns {S : Type} (M : Mode) (P : PolyLib) (X : Xof S) (n bound bytelen : Nat) (message sig : Bytes) (r : Option Nat) : Prop :=
  ∃ fuel, pyRecover M P X n bound bytelen message sig fuel = some (.ok r)

theorem decode_pair (n bytelen : Nat) (hn : 0 < n) (sig : Bytes) (s : List Int) :
    Encoding.decompress ((sig.take (sig.length - n * 3)).drop (1 + 40)) (bytelen * 2 - 1 - 40) (n * 2) = .ok (some s) ↔
      ∃ s0 s1, s = s0 ++ s1 ∧ EncodesPair n bytelen sig s0 s1 := by
  rw [Encoding.decompress_accepts_iff _ _ _ (by omega), Nat.mul_comm n 3]
  unfold EncodesPair
  rw [show (sig.take (sig.length - 3 * n)).drop (1 + 40) = body n sig from rfl]
  constructor
  · rintro ⟨h1, h2, h3⟩
    refine ⟨s.take n, s.drop n, (List.take_append_drop n s).symm, by omega, by rw [List.length_take]; omega, by rw [List.length_drop]; omega, by rw [List.take_append_drop]; exact h3⟩
  · rintro ⟨s0, s1, rfl, h1, h2, h3, h4⟩
    exact ⟨by omega, by rw [List.length_append]; omega, h4⟩

theorem halves {n : Nat} {s0 s1 : List Int} (h0 : s0.length = n) (h1 : s1.length = n) :
    (s0 ++ s1).take ((s0 ++ s1).length / 2) = s0 ∧ (s0 ++ s1).drop ((s0 ++ s1).length / 2) = s1 := by
  have : (s0 ++ s1).length / 2 = s0.length := by rw [List.length_append]; omega
  rw [this]
  exact ⟨List.take_left, List.drop_left⟩

/-- pointwise product with the hint is the vector of ones -/
theorem all_one {P : PolyLib} {n : Nat} {w : Nat → ZMod 12289} (L : NttLaw P n w) (hint s1 : List Int) (hh : hint.length = n) (h1 : s1.length = n) :
    (¬ (P.vecMul hint (P.ntt s1)).any (fun x => decide (x ≠ 1)) = true) ↔ ∀ i < n, ((hint.getD i 0 : Int) : ZMod 12289) * ev (w i) s1 = 1 := by
  obtain ⟨l1, _, _⟩ := L.ntt s1 h1
  obtain ⟨v1, v2, v3⟩ := L.vec hint (P.ntt s1) hh l1
  have hv : ∀ i < n, (((P.vecMul hint (P.ntt s1)).getD i 0 : Int) : ZMod 12289) = ((hint.getD i 0 : Int) : ZMod 12289) * ev (w i) s1 := by
    intro i hi
    rw [vec_get v3 i (by omega) (by omega), L.ev_ntt s1 h1 i hi]
  have hone : ∀ x : Int, 0 ≤ x ∧ x < 12289 → ((x : ZMod 12289) = 1 ↔ x = 1) := by
    intro x hx
    rw [show (1 : ZMod 12289) = ((1 : Int) : ZMod 12289) by norm_cast, ZMod.intCast_eq_intCast_iff, Int.ModEq]
    omega
  rw [Bool.not_eq_true, List.any_eq_false]
  constructor
  · intro h i hi
    rw [← hv i hi, List.getD_eq_getElem?_getD, List.getElem?_eq_getElem (by omega), Option.getD_some]
    have := h _ (List.getElem_mem (show i < (P.vecMul hint (P.ntt s1)).length by omega))
    have : (P.vecMul hint (P.ntt s1))[i] = 1 := by
      by_contra hne
      exact this (decide_eq_true hne)
    rw [this]; simp
  · intro h x hx
    obtain ⟨i, hi, rfl⟩ := List.getElem_of_mem hx
    have e := h i (by omega)
    rw [← hv i (by omega), List.getD_eq_getElem?_getD, List.getElem?_eq_getElem hi, Option.getD_some, hone _ (v2 _ (List.getElem_mem hi))] at e
    simp [e]

/-- the recovered polynomial -/
theorem recovered {M : Mode} {P : PolyLib} {n : Nat} {w : Nat → ZMod 12289} (hn : 0 < n) (A : Arith P n) (L : NttLaw P n w) (ML : ModeLaw M P n) (c s0 s1 hint : List Int)
    (hc : c.length = n) (h0 : s0.length = n) (h1 : s1.length = n) (hh : hint.length = n) (hu : ∀ i < n, ((hint.getD i 0 : Int) : ZMod 12289) * ev (w i) s1 = 1) (a : Nat) :
    pyAddress (M.fin P (P.vecMul (P.ntt (P.sub c (M.pos s0))) hint)) = .ok a ↔
      ∃ h, h.length = n ∧ Reduced h ∧ IsPreimage n h c s0 s1 ∧ keyAddress M P h = .ok a := by
  obtain ⟨p1, p2⟩ := ML.pos s0
  obtain ⟨d1, d2⟩ := A.sub c (M.pos s0) hc (by omega)
  obtain ⟨t1, t2, _⟩ := L.ntt _ d1
  obtain ⟨v1, v2, v3⟩ := L.vec _ hint t1 hh
  have hd : ∀ i < n, ev (w i) (P.sub c (M.pos s0)) = ev (w i) c - ev (w i) s0 := by
    intro i hi
    rw [← ev_zq, d2, ev_zipWith_sub _ n _ _ (by simpa using hc) (by rw [p2]; simpa using h0), p2, ev_zq, ev_zq]
  have hv : ∀ i < n, (((P.vecMul (P.ntt (P.sub c (M.pos s0))) hint).getD i 0 : Int) : ZMod 12289) = (ev (w i) c - ev (w i) s0) * ((hint.getD i 0 : Int) : ZMod 12289) := by
    intro i hi
    rw [vec_get v3 i (by omega) (by omega), L.ev_ntt _ d1 i hi, hd i hi]
  generalize P.vecMul (P.ntt (P.sub c (M.pos s0))) hint = v at v1 v2 v3 hv
  have pre : ∀ h : List Int, h.length = n → (IsPreimage n h c s0 s1 ↔ ∀ i < n, ev (w i) s0 + ev (w i) s1 * ev (w i) h = ev (w i) c) := by
    intro h hl
    have key : zq (List.zipWith (· + ·) s0 (negMul n s1 h)) = List.zipWith (· + ·) (zq s0) (negMul n (zq s1) (zq h)) := by
      rw [← zq_negMul n s1 h h1 hl hn]
      unfold zq
      rw [List.map_zipWith, List.zipWith_map]
      simp only [Int.cast_add]
    have lk : (List.zipWith (· + ·) s0 (negMul n s1 h)).length = n := by rw [List.length_zipWith, length_negMul, h0]; omega
    have ek : ∀ i < n, ev (w i) (List.zipWith (· + ·) s0 (negMul n s1 h)) = ev (w i) s0 + ev (w i) s1 * ev (w i) h := by
      intro i hi
      rw [ev_zipWith_add _ n _ _ h0 (length_negMul ..), ev_negMul _ n (L.root i hi) _ _ h1 hl]
    unfold IsPreimage
    rw [← key]
    constructor
    · rintro ⟨_, _, e⟩ i hi
      rw [← ek i hi, ← ev_zq, e, ev_zq]
    · intro e
      refine ⟨h0, h1, L.inj _ _ lk hc fun i hi => ?_⟩
      rw [ek i hi, e i hi]
  have one_h : ∀ h : List Int, h.length = n → Reduced h → (IsPreimage n h c s0 s1 ↔ P.ntt h = v) := by
    intro h hl hr
    rw [pre h hl]
    obtain ⟨n1, n2, _⟩ := L.ntt h hl
    constructor
    · intro e
      apply reduced_eq n2 v2
      apply zq_ext n1 v1
      intro i hi
      rw [L.ev_ntt h hl i hi, hv i hi]
      linear_combination (-(ev (w i) h)) * hu i hi + ((hint.getD i 0 : Int) : ZMod 12289) * e i hi
    · intro e i hi
      have e1 := hv i hi
      rw [← e, L.ev_ntt h hl i hi] at e1
      linear_combination (ev (w i) s1) * e1 + (ev (w i) c - ev (w i) s0) * hu i hi
  constructor
  · intro ha
    obtain ⟨i1, i2, _⟩ := L.intt v v1
    refine ⟨P.intt v, i1, i2, (one_h _ i1 i2).2 (ntt_intt L v v1 v2), ?_⟩
    unfold keyAddress
    rw [← ML.fin _ i1 i2, ntt_intt L v v1 v2]
    exact ha
  · rintro ⟨h, hl, hr, hp, ha⟩
    rw [← (one_h h hl hr).1 hp, ML.fin h hl hr]
    exact ha

section
variable {S : Type}

/-- **C41** (what recovery computes, both modes): `recover` returns the integer `a` exactly when the body encodes integers `s0, s1` of small norm, each hint entry is the inverse of the value of
`s1` at the corresponding point, the message hashes to some `c`, and `a` is the key hash of an `h` with `s0 + s1*h = c`. -/
theorem C41_recover_iff (M : Mode) (P : PolyLib) (X : Xof S) (n bound bytelen : Nat) (hn : 0 < n) (w : Nat → ZMod 12289) (A : Arith P n) (L : NttLaw P n w) (ML : ModeLaw M P n)
    (message sig : Bytes) (a : Nat) :
    PyRecoverReturns M P X n bound bytelen message sig (some a) ↔
      ∃ s0 s1, EncodesPair n bytelen sig s0 s1 ∧ (∀ i < n, (((hints n sig).getD i 0 : Int) : ZMod 12289) * (toPoly (zq s1)).eval (w i) = 1) ∧ normSq s0 + normSq s1 ≤ bound ∧
        ∃ c, Returns X n message (saltOf sig) c ∧
          ∃ h, h.length = n ∧ Reduced h ∧ IsPreimage n h (List.map (fun x : Nat => (x : Int)) c) s0 s1 ∧ keyAddress M P h = .ok a := by
  have ev_eq : ∀ (s1 : List Int) i, (toPoly (zq s1)).eval (w i) = ev (w i) s1 := fun s1 i => by
    rw [← Polynomial.coe_aeval_eq_eval, aeval_toPoly, ev_zq]
  simp only [ev_eq]
  constructor
  · rintro ⟨fuel, h⟩
    unfold pyRecover at h
    dsimp only at h
    split at h
    · cases h
    · cases h
    · rename_i s hd
      obtain ⟨s0, s1, rfl, he⟩ := (decode_pair n bytelen hn sig s).1 hd
      obtain ⟨q1, q2⟩ := halves he.2.1 he.2.2.1
      rw [q1, q2, Nat.mul_comm n 3, show be24 (sig.drop (sig.length - 3 * n)) = hints n sig from rfl] at h
      have hl := length_hints n sig (by have := he.long hn; omega)
      split at h
      · cases h
      · rename_i hone
        rw [all_one L _ _ hl he.2.2.1] at hone
        split at h
        · cases h
        · rename_i hb
          rw [sumSq_eq, sumSq_eq] at hb
          split at h
          · cases h
          · cases h
          · rename_i c hc
            split at h
            · cases h
            · rename_i a' ha
              simp only [Option.some.injEq, Except.ok.injEq] at h
              subst h
              exact ⟨s0, s1, he, hone, not_lt.1 hb, c, ⟨fuel, hc⟩,
                (recovered hn A L ML _ s0 s1 _ (by simpa using hash_length ⟨fuel, hc⟩) he.2.1 he.2.2.1 hl hone a').1 ha⟩
  · rintro ⟨s0, s1, he, hone, hb, c, ⟨fuel, hc⟩, hh⟩
    refine ⟨fuel, ?_⟩
    have hl := length_hints n sig (by have := he.long hn; omega)
    obtain ⟨q1, q2⟩ := halves he.2.1 he.2.2.1
    unfold pyRecover
    dsimp only
    rw [(decode_pair n bytelen hn sig _).2 ⟨s0, s1, rfl, he⟩]
    dsimp only
    rw [q1, q2, Nat.mul_comm n 3, show be24 (sig.drop (sig.length - 3 * n)) = hints n sig from rfl, if_neg ((all_one L _ _ hl he.2.2.1).2 hone),
      if_neg (by rw [sumSq_eq, sumSq_eq]; exact not_lt.2 hb), show (sig.drop 1).take 40 = saltOf sig from rfl, hc]
    dsimp only
    rw [(recovered hn A L ML _ s0 s1 _ (by simpa using hash_length ⟨fuel, hc⟩) he.2.1 he.2.2.1 hl hone a).2 hh]

/-- `verify` returns `b`. -/
def PyVerifyReturns (M : Mode) (P : PolyLib) (X : Xof S) (n bound bytelen pk : Nat) (message sig : Bytes) (b : Bool) : Prop :=
  ∃ fuel, pyVerify M P X n bound bytelen pk message sig fuel = some (.ok b)

/-- **C41**: `verify` returns `True` exactly when recovery returns the public key, or when recovery fails and the public key is 0. -/
theorem C41_verify_iff (M : Mode) (P : PolyLib) (X : Xof S) (n bound bytelen pk : Nat) (message sig : Bytes) :
    PyVerifyReturns M P X n bound bytelen pk message sig true ↔
      PyRecoverReturns M P X n bound bytelen message sig (some pk) ∨ (pk = 0 ∧ PyRecoverReturns M P X n bound bytelen message sig none) := by
  unfold PyVerifyReturns PyRecoverReturns pyVerify
  constructor
  · rintro ⟨fuel, h⟩
    split at h
    · cases h
    · cases h
    · rename_i r hr
      simp only [Option.some.injEq, Except.ok.injEq] at h
      unfold pyEq at h
      cases r with
      | none => exact Or.inr ⟨of_decide_eq_true h, fuel, hr⟩
      | some a => rw [of_decide_eq_true h] at hr; exact Or.inl ⟨fuel, hr⟩
  · rintro (⟨fuel, h⟩ | ⟨rfl, fuel, h⟩)
    · exact ⟨fuel, by rw [h]; simp [pyEq]⟩
    · exact ⟨fuel, by rw [h]; simp [pyEq]⟩

/-- **C41, what remains true**: for a nonzero public key, `verify` returns `True` only if recovery returns that key. -/
theorem C41_nonzero_partial (M : Mode) (P : PolyLib) (X : Xof S) (n bound bytelen pk : Nat) (hpk : pk ≠ 0) (message sig : Bytes) :
    PyVerifyReturns M P X n bound bytelen pk message sig true ↔ PyRecoverReturns M P X n bound bytelen message sig (some pk) := by
  rw [C41_verify_iff]
  constructor
  · rintro (h | ⟨h, _⟩)
    · exact h
    · exact absurd h hpk
  · exact Or.inl

/-- **C41 is false**: with public key 0, every string whose body is too long is accepted, for every message, library and hash function. -/
theorem C41_false (M : Mode) (P : PolyLib) (X : Xof S) (n bound bytelen : Nat) (message sig : Bytes) (h : 2 * bytelen + 3 * n < sig.length) (hb : 41 ≤ 2 * bytelen) :
    PyVerifyReturns M P X n bound bytelen 0 message sig true := by
  rw [C41_verify_iff]
  refine Or.inr ⟨rfl, 0, ?_⟩
  unfold pyRecover
  dsimp only
  have : Encoding.decompress ((sig.take (sig.length - n * 3)).drop (1 + 40)) (bytelen * 2 - 1 - 40) (n * 2) = .ok none := by
    unfold Encoding.decompress
    rw [if_pos (by rw [List.length_drop, List.length_take]; omega)]
  rw [this]

example : PyVerifyReturns epervier (lib 4) shakeXof 4 208714 47 0 [1, 2] (List.replicate 200 9) true := C41_false _ _ _ _ _ _ _ _ (by rw [List.length_replicate]; norm_num) (by norm_num)

/-! ## C40 -/

theorem joinBytes3_spec : ∀ (l : List Int), Reduced l → ∃ b, joinBytes3 l = .ok b ∧ b.length = 3 * l.length ∧ IsBytes b ∧ be24 b = l
  | [], _ => ⟨[], rfl, rfl, (fun x hx => by cases hx), rfl⟩
  | x :: l, h => by
    obtain ⟨r, r1, r2, r3, r4⟩ := joinBytes3_spec l (fun y hy => h y (List.mem_cons_of_mem _ hy))
    obtain ⟨h1, h2⟩ := h x (List.mem_cons_self ..)
    obtain ⟨m, rfl⟩ := Int.eq_ofNat_of_zero_le h1
    have h2 : m < 12289 := by exact_mod_cast h2
    refine ⟨[m / 65536, m / 256 % 256, m % 256] ++ r, ?_, by simp [r2]; omega, ?_, ?_⟩
    · have : toBytes3 (m : Int) = .ok [m / 65536, m / 256 % 256, m % 256] := by
        unfold toBytes3
        rw [if_neg (by push_cast; omega)]
        simp
      unfold joinBytes3
      rw [this, r1]
    · intro y hy
      simp only [List.cons_append, List.nil_append, List.mem_cons] at hy
      rcases hy with rfl | rfl | rfl | hy
      · omega
      · omega
      · omega
      · exact r3 y hy
    · simp only [List.cons_append, List.nil_append, be24, r4]
      congr 1
      have : (m / 65536 * 256 + m / 256 % 256) * 256 + m % 256 = m := by omega
      rw [this]

/-- The hint of an invertible `s1` exists: `3 n` bytes holding the inverses of the values of `s1`. -/
theorem hintBytes_spec {P : PolyLib} {n : Nat} {w : Nat → ZMod 12289} (hn : 0 < n) (L : NttLaw P n w) (I : InvLaw P n) (s1 : List Int) (h1 : s1.length = n)
    (hu : ∀ x ∈ P.ntt s1, x % 12289 ≠ 0) :
    ∃ b, hintBytes P s1 = .ok b ∧ b.length = 3 * n ∧ IsBytes b ∧ Reduced (be24 b) ∧ ∀ i < n, (((be24 b).getD i 0 : Int) : ZMod 12289) * ev (w i) s1 = 1 := by
  have hunit := (L.unit_iff hn s1 h1).1 (fun x hx h0 => hu x hx (by rw [h0]; rfl))
  obtain ⟨i, hi⟩ := I.inv_some s1 h1 hunit
  obtain ⟨i1, i2⟩ := I.inv s1 i h1 hi
  obtain ⟨t1, t2, _⟩ := L.ntt i i1
  obtain ⟨b, b1, b2, b3, b4⟩ := joinBytes3_spec _ t2
  refine ⟨b, ?_, by rw [b2, t1], b3, by rw [b4]; exact t2, ?_⟩
  · unfold hintBytes; rw [hi]; exact b1
  · intro j hj
    rw [b4, L.ev_ntt i i1 j hj]
    have := congrArg (ev (w j)) i2
    rw [ev_negMul _ n (L.root j hj) _ _ (by simpa using h1) (by simpa using i1), ev_zq, ev_zq, one, ev_const, map_one] at this
    rw [mul_comm]; exact this

/-- A pair is good for recovery: `s1` invertible, short enough, both halves fit. -/
def GoodPair (n bound bytelen : Nat) (s : List Int × List Int) : Prop :=
  (∃ i : List (ZMod 12289), i.length = n ∧ negMul n (zq s.2) i = one n) ∧ normSq s.1 + normSq s.2 ≤ bound ∧ codeLength (s.1 ++ s.2) ≤ 8 * (2 * bytelen - 41)

theorem all_nonzero {P : PolyLib} {n : Nat} {w : Nat → ZMod 12289} (hn : 0 < n) (L : NttLaw P n w) (s1 : List Int) (h1 : s1.length = n) :
    (P.ntt s1).all (fun x => decide (x % 12289 ≠ 0)) = true ↔ ∃ i : List (ZMod 12289), i.length = n ∧ negMul n (zq s1) i = one n := by
  rw [← L.unit_iff hn s1 h1, List.all_eq_true]
  obtain ⟨_, t2, _⟩ := L.ntt s1 h1
  constructor
  · intro h x hx h0
    have := of_decide_eq_true (h x hx)
    rw [h0] at this; exact this rfl
  · intro h x hx
    have := h x hx
    have := t2 x hx
    exact decide_eq_true (by omega)

theorem pySignLoop_iff (M : Mode) {P : PolyLib} {n : Nat} {w : Nat → ZMod 12289} (hn : 0 < n) (L : NttLaw P n w) (I : InvLaw P n) (attempt : Nat → List Int × List Int)
    (ha : ∀ k, (attempt k).2.length = n) (bound bytelen : Nat) (pre sig : Bytes) : ∀ (fuel k : Nat),
    pySignLoop M P attempt bound (bytelen * 2 - 1 - 40) pre fuel k = some (.ok sig) ↔
      ∃ j, j < fuel ∧ (∀ i < j, ¬ GoodPair n bound bytelen (attempt (k + i))) ∧ GoodPair n bound bytelen (attempt (k + j)) ∧
        ∃ enc b, IsBytes enc ∧ enc.length = 2 * bytelen - 41 ∧ ZeroPadded enc (code ((attempt (k + j)).1 ++ (attempt (k + j)).2)) ∧
          hintBytes P (attempt (k + j)).2 = .ok b ∧ sig = pre ++ enc ++ b := by
  intro fuel
  induction fuel with
  | zero => intro k; simp [pySignLoop]
  | succ fuel ih =>
    intro k
    have h1 := ha k
    have step : pySignLoop M P attempt bound (bytelen * 2 - 1 - 40) pre (fuel + 1) k =
        if (P.ntt (attempt k).2).all (fun x => decide (x % 12289 ≠ 0)) then
          if sumSq (attempt k).1 + sumSq (attempt k).2 ≤ bound then
            match Encoding.compress ((attempt k).1 ++ (attempt k).2) (bytelen * 2 - 1 - 40) with
            | some enc => match hintBytes P (attempt k).2 with
              | .error e => some (.error e)
              | .ok b => some (.ok (pre ++ enc ++ b))
            | none => if M.eager then
                match hintBytes P (attempt k).2 with
                | .error e => some (.error e)
                | .ok _ => pySignLoop M P attempt bound (bytelen * 2 - 1 - 40) pre fuel (k + 1)
              else pySignLoop M P attempt bound (bytelen * 2 - 1 - 40) pre fuel (k + 1)
          else pySignLoop M P attempt bound (bytelen * 2 - 1 - 40) pre fuel (k + 1)
        else pySignLoop M P attempt bound (bytelen * 2 - 1 - 40) pre fuel (k + 1) := rfl
    rw [sumSq_eq, sumSq_eq] at step
    obtain ⟨c1, c2⟩ := Encoding.compress_fits_iff ((attempt k).1 ++ (attempt k).2) (bytelen * 2 - 1 - 40)
    have hlen : bytelen * 2 - 1 - 40 = 2 * bytelen - 41 := by omega
    have cont : (¬ GoodPair n bound bytelen (attempt k)) →
        pySignLoop M P attempt bound (bytelen * 2 - 1 - 40) pre (fuel + 1) k = pySignLoop M P attempt bound (bytelen * 2 - 1 - 40) pre fuel (k + 1) := by
      intro hg
      rw [step]
      by_cases hu : (P.ntt (attempt k).2).all (fun x => decide (x % 12289 ≠ 0)) = true
      swap
      · rw [if_neg hu]
      rw [if_pos hu]
      by_cases hb : normSq (attempt k).1 + normSq (attempt k).2 ≤ bound
      swap
      · rw [if_neg hb]
      rw [if_pos hb, c1.2 (by by_contra h; exact hg ⟨(all_nonzero hn L _ h1).1 hu, hb, by omega⟩)]
      dsimp only
      split
      · obtain ⟨b, hb', _⟩ := hintBytes_spec hn L I _ h1 (fun x hx => of_decide_eq_true (List.all_eq_true.1 hu x hx))
        rw [hb']
      · rfl
    by_cases hg : GoodPair n bound bytelen (attempt k)
    · have hu := (all_nonzero hn L _ h1).2 hg.1
      obtain ⟨b, hb', _⟩ := hintBytes_spec hn L I _ h1 (fun x hx => of_decide_eq_true (List.all_eq_true.1 hu x hx))
      rw [step, if_pos hu, if_pos hg.2.1]
      cases hc : Encoding.compress ((attempt k).1 ++ (attempt k).2) (bytelen * 2 - 1 - 40) with
      | none => have := c1.1 hc; have := hg.2.2; omega
      | some enc =>
        obtain ⟨d1, d2, d3, d4⟩ := (c2 enc).1 hc
        rw [hb']
        dsimp only
        constructor
        · intro h
          simp only [Option.some.injEq, Except.ok.injEq] at h
          exact ⟨0, by omega, by intro i hi; omega, hg, enc, b, d2, by omega, d4, hb', h.symm⟩
        · rintro ⟨j, hj, g1, g2, enc', b', e1, e2, e3, e4, e5⟩
          have hj0 : j = 0 := by
            by_contra hne
            exact g1 0 (by omega) hg
          subst hj0
          have := (c2 enc').2 ⟨d1, e1, by omega, e3⟩
          rw [hc, Option.some.injEq] at this
          rw [Nat.add_zero, hb', Except.ok.injEq] at e4
          rw [this, e4, e5]
    · rw [cont hg, ih (k + 1)]
      constructor
      · rintro ⟨j, hj, g1, g2⟩
        refine ⟨j + 1, by omega, ?_, by rw [show k + (j + 1) = k + 1 + j by omega]; exact g2⟩
        intro i hi
        cases i with
        | zero => exact hg
        | succ i => rw [show k + (i + 1) = k + 1 + i by omega]; exact g1 i (by omega)
      · rintro ⟨j, hj, g1, g2⟩
        cases j with
        | zero => exact absurd g2.1 hg
        | succ j =>
          refine ⟨j, by omega, ?_, by rw [show k + 1 + j = k + (j + 1) by omega]; exact g2⟩
          intro i hi
          rw [show k + 1 + i = k + (i + 1) by omega]
          exact g1 (i + 1) (by omega)

/-- `sign` returns `sig`. -/
def PySignReturns (M : Mode) (P : PolyLib) (X : Xof S) (n bound bytelen : Nat) (salt message : Bytes) (attempt : List Int → Nat → List Int × List Int) (sig : Bytes) : Prop :=
  ∃ fuel, pySign M P X n bound bytelen salt message attempt fuel = some (.ok sig)

/-- **C40** (what signing returns, both modes): the first sampled pair with invertible `s1`, small norm and fitting encoding, as header, salt, zero-padded encoding of both halves, and the hint. -/
theorem C40_sign_iff (M : Mode) (P : PolyLib) (X : Xof S) (n bound bytelen : Nat) (hn : 0 < n) (w : Nat → ZMod 12289) (L : NttLaw P n w) (I : InvLaw P n) (salt message : Bytes)
    (attempt : List Int → Nat → List Int × List Int) (ha : ∀ c k, c.length = n → (attempt c k).2.length = n) (sig : Bytes) :
    PySignReturns M P X n bound bytelen salt message attempt sig ↔
      ∃ c, Returns X n message salt c ∧ ∃ j, (∀ i < j, ¬ GoodPair n bound bytelen (attempt (List.map (fun x : Nat => (x : Int)) c) i)) ∧
        GoodPair n bound bytelen (attempt (List.map (fun x : Nat => (x : Int)) c) j) ∧
        ∃ enc b, IsBytes enc ∧ enc.length = 2 * bytelen - 41 ∧
          ZeroPadded enc (code ((attempt (List.map (fun x : Nat => (x : Int)) c) j).1 ++ (attempt (List.map (fun x : Nat => (x : Int)) c) j).2)) ∧
          hintBytes P (attempt (List.map (fun x : Nat => (x : Int)) c) j).2 = .ok b ∧
          sig = (0x30 + logn n) :: salt ++ enc ++ b := by
  constructor
  · rintro ⟨fuel, h⟩
    unfold pySign at h
    dsimp only at h
    split at h
    · cases h
    · cases h
    · rename_i c hc
      have hl : (List.map (fun x : Nat => (x : Int)) c).length = n := by simpa using hash_length ⟨fuel, hc⟩
      obtain ⟨j, _, h1, h2, h3⟩ := (pySignLoop_iff M hn L I _ (fun k => ha _ k hl) bound bytelen _ sig fuel 0).1 h
      simp only [Nat.zero_add] at h1 h2 h3
      exact ⟨c, ⟨fuel, hc⟩, j, h1, h2, h3⟩
  · rintro ⟨c, ⟨fuel, hc⟩, j, h1, h2, h3⟩
    have hl : (List.map (fun x : Nat => (x : Int)) c).length = n := by simpa using hash_length ⟨fuel, hc⟩
    refine ⟨fuel + (j + 1), ?_⟩
    unfold pySign
    dsimp only
    rw [hashToPoint_mono X n message salt _ fuel (j + 1) hc]
    dsimp only
    exact (pySignLoop_iff M hn L I (attempt (List.map (fun x : Nat => (x : Int)) c)) (fun k => ha _ k hl) bound bytelen ((0x30 + logn n) :: salt) sig (fuel + (j + 1)) 0).2
      ⟨j, by omega, by simpa using h1, by simpa using h2, by simpa using h3⟩

/-- **C40**: whatever integer vectors the sampler returns, recovery on every signature produced with a key returns the key's hash, for the same message and hash function, in both modes. -/
theorem C40_sign_recover (M : Mode) (P : PolyLib) (X : Xof S) (n bound bytelen : Nat) (hpar : params n = some (bound, bytelen)) (w : Nat → ZMod 12289)
    (A : Arith P n) (L : NttLaw P n w) (I : InvLaw P n) (ML : ModeLaw M P n) (sk : SecretKey) (K : IsKey n sk) (hr : Reduced sk.h)
    (salt message : Bytes) (hs : salt.length = 40) (z : List Int → Nat → List Int × List Int)
    (hz : ∀ c k, (z c k).1.length = n ∧ (z c k).2.length = n) (sig : Bytes) (pk : Nat) (hpk : keyAddress M P sk.h = .ok pk)
    (h : PySignReturns M P X n bound bytelen salt message (fun c k => samplePreimage n sk c (z c k)) sig) :
    PyRecoverReturns M P X n bound bytelen message sig (some pk) := by
  have hn : 0 < n := by
    by_contra h0
    obtain rfl : n = 0 := by omega
    cases hpar
  have hI : ∀ c k, c.length = n → IsPreimage n sk.h c (samplePreimage n sk c (z c k)).1 (samplePreimage n sk c (z c k)).2 := fun c k hc =>
    samplePreimage_isPreimage n hn sk K c hc (z c k) (hz _ _).1 (hz _ _).2
  obtain ⟨c, hc, j, _, hg, enc, b, e1, e2, ⟨m, e3⟩, e4, e5⟩ :=
    (C40_sign_iff M P X n bound bytelen hn w L I salt message _ (fun c k hc => (hI c k hc).2.1) sig).1 h
  have hp := hI (List.map (fun x : Nat => (x : Int)) c) j (by simpa using hash_length hc)
  obtain ⟨b', b1, b2, b3, _, b4⟩ := hintBytes_spec hn L I _ hp.2.1 (fun x hx => of_decide_eq_true (List.all_eq_true.1 ((all_nonzero hn L _ hp.2.1).2 hg.1) x hx))
  obtain rfl : b' = b := by rw [e4, Except.ok.injEq] at b1; exact b1.symm
  have hlen : sig.length - 3 * n = ((0x30 + logn n) :: salt ++ enc).length := by
    rw [e5, List.length_append, b2]; omega
  have hhint : hints n sig = be24 b' := by
    unfold hints
    rw [hlen, e5, List.drop_left]
  have hbody : body n sig = enc := by
    unfold body
    rw [hlen, e5, List.take_left, List.drop_left' (by simp [hs])]
  rw [C41_recover_iff M P X n bound bytelen hn w A L ML]
  have hsalt : saltOf sig = salt := by
    rw [e5]
    unfold saltOf
    simp [hs]
  refine ⟨_, _, ⟨by rw [hbody, e2], hp.1, hp.2.1, by rw [hbody, e3]; exact List.prefix_append _ _⟩, ?_, hg.2.1, c, by rw [hsalt]; exact hc, sk.h, K.lh, hr, hp, hpk⟩
  intro i hi
  rw [hhint, ← Polynomial.coe_aeval_eq_eval, aeval_toPoly, ev_zq]
  exact b4 i hi

/-- C40 for the Epervier mode: sign then verify. -/
theorem C40_epervier (P : PolyLib) (X : Xof S) (n bound bytelen : Nat) (hpar : params n = some (bound, bytelen)) (w : Nat → ZMod 12289)
    (A : Arith P n) (L : NttLaw P n w) (I : InvLaw P n) (sk : SecretKey) (K : IsKey n sk) (hr : Reduced sk.h)
    (salt message : Bytes) (hs : salt.length = 40) (z : List Int → Nat → List Int × List Int)
    (hz : ∀ c k, (z c k).1.length = n ∧ (z c k).2.length = n) (sig : Bytes)
    (h : PySignReturns epervier P X n bound bytelen salt message (fun c k => samplePreimage n sk c (z c k)) sig) :
    ∃ pk, keyAddress epervier P sk.h = .ok pk ∧ PyVerifyReturns epervier P X n bound bytelen pk message sig true := by
  have hpk : keyAddress epervier P sk.h = .ok _ := pyAddress_eq _ ((epervier_law L).red sk.h K.lh hr)
  exact ⟨_, hpk, (C41_verify_iff _ _ _ _ _ _ _ _ _).2 (Or.inl (C40_sign_recover epervier P X n bound bytelen hpar w A L I (epervier_law L) sk K hr salt message hs z hz sig _ hpk h))⟩

/-- C40 for the recovery mode: sign then verify. -/
theorem C40_recovery (P : PolyLib) (X : Xof S) (n bound bytelen : Nat) (hpar : params n = some (bound, bytelen)) (w : Nat → ZMod 12289)
    (A : Arith P n) (L : NttLaw P n w) (I : InvLaw P n) (sk : SecretKey) (K : IsKey n sk) (hr : Reduced sk.h)
    (salt message : Bytes) (hs : salt.length = 40) (z : List Int → Nat → List Int × List Int)
    (hz : ∀ c k, (z c k).1.length = n ∧ (z c k).2.length = n) (sig : Bytes)
    (h : PySignReturns recoveryMode P X n bound bytelen salt message (fun c k => samplePreimage n sk c (z c k)) sig) :
    ∃ pk, keyAddress recoveryMode P sk.h = .ok pk ∧ PyVerifyReturns recoveryMode P X n bound bytelen pk message sig true := by
  have hpk : keyAddress recoveryMode P sk.h = .ok _ := pyAddress_eq _ ((recovery_law L).red sk.h K.lh hr)
  exact ⟨_, hpk, (C41_verify_iff _ _ _ _ _ _ _ _ _).2 (Or.inl (C40_sign_recover recoveryMode P X n bound bytelen hpar w A L I (recovery_law L) sk K hr salt message hs z hz sig _ hpk h))⟩

end

end Verif.Epervier
