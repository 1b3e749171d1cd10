import Verif.Falcon.Keygen
import Verif.Falcon.Props
import Verif.Ring.Props

/-! # C59: the public key, and what key generation guarantees -/

namespace Verif.Falcon

open Verif Verif.Ring Verif.Hash

/-- **C59** (given polynomials): a constructed secret key has four polynomials of length `n` and its public key satisfies `h*f = g` modulo `(q, x^n+1)`,
with `f` invertible; wrong lengths are refused. -/
theorem C59_public_key (P : PolyLib) (n : Nat) (A : Arith P n) (f g F G : List Int) :
    (∀ sk, mkSecretKey P n f g F G = .ok sk → sk.f = f ∧ sk.g = g ∧ sk.F = F ∧ sk.G = G ∧
      f.length = n ∧ g.length = n ∧ F.length = n ∧ G.length = n ∧ sk.h.length = n ∧ negMul n (zq sk.h) (zq f) = zq g ∧
      ∃ i : List (ZMod 12289), i.length = n ∧ negMul n (zq f) i = one n) ∧
    (¬ (f.length = n ∧ g.length = n ∧ F.length = n ∧ G.length = n) → mkSecretKey P n f g F G = .error .assertError) := by
  unfold mkSecretKey
  constructor
  · intro sk h
    split at h
    · rename_i hl
      split at h
      · cases h
      · rename_i hh hd
        simp only [Except.ok.injEq] at h
        subst h
        obtain ⟨d1, d2, d3⟩ := A.div g f hh hl.2.1 hl.1 hd
        exact ⟨rfl, rfl, rfl, rfl, hl.1, hl.2.1, hl.2.2.1, hl.2.2.2, d1, d2, d3⟩
    · cases h
  · intro h; rw [if_neg h]

/-- What `ntru_gen` returns: a candidate, solved, whose `f` has no zero in its transform. -/
theorem ntruGen_spec (P : PolyLib) (K : KOracle) (rf : Nat) (tooLong : List Int → List Int → Bool) (cand : Nat → List Int × List Int) (f g F G : List Int) :
    ∀ fuel k, ntruGen P K rf tooLong cand fuel k = some (.ok (f, g, F, G)) →
      ∃ j, cand (k + j) = (f, g) ∧ tooLong f g = false ∧ (∀ x ∈ P.ntt f, x ≠ 0) ∧ ntruSolve K rf f g = .ok (some (F, G)) ∧
        ∀ i < j, tooLong (cand (k + i)).1 (cand (k + i)).2 = true ∨ 0 ∈ P.ntt (cand (k + i)).1 ∨ ntruSolve K rf (cand (k + i)).1 (cand (k + i)).2 = .error .valueError := by
  intro fuel
  induction fuel with
  | zero => intro k h; cases h
  | succ fuel ih =>
    intro k h
    have next : ntruGen P K rf tooLong cand fuel (k + 1) = some (.ok (f, g, F, G)) →
        (tooLong (cand k).1 (cand k).2 = true ∨ 0 ∈ P.ntt (cand k).1 ∨ ntruSolve K rf (cand k).1 (cand k).2 = .error .valueError) →
        ∃ j, cand (k + j) = (f, g) ∧ tooLong f g = false ∧ (∀ x ∈ P.ntt f, x ≠ 0) ∧ ntruSolve K rf f g = .ok (some (F, G)) ∧
        ∀ i < j, tooLong (cand (k + i)).1 (cand (k + i)).2 = true ∨ 0 ∈ P.ntt (cand (k + i)).1 ∨ ntruSolve K rf (cand (k + i)).1 (cand (k + i)).2 = .error .valueError := by
      intro h0 h1
      obtain ⟨j, h2, h3, h4, h5, h6⟩ := ih _ h0
      refine ⟨j + 1, by rw [show k + (j + 1) = k + 1 + j by omega]; exact h2, h3, h4, h5, ?_⟩
      intro i hi
      cases i with
      | zero => exact h1
      | succ i => rw [show k + (i + 1) = k + 1 + i by omega]; exact h6 i (by omega)
    unfold ntruGen at h
    dsimp only at h
    split at h
    · rename_i h1; exact next h (Or.inl h1)
    · rename_i h1
      split at h
      · rename_i h2
        refine next h (Or.inr (Or.inl ?_))
        obtain ⟨x, hx, h0⟩ := List.any_eq_true.1 h2
        rwa [show x = 0 by simpa using h0] at hx
      · rename_i h2
        split at h
        · rename_i h3; exact next h (Or.inr (Or.inr h3))
        · cases h
        · cases h
        · rename_i F' G' h3
          simp only [Option.some.injEq, Except.ok.injEq, Prod.mk.injEq] at h
          obtain ⟨rfl, rfl, rfl, rfl⟩ := h
          refine ⟨0, rfl, by simpa using h1, ?_, h3, by intro i hi; omega⟩
          intro x hx h0
          exact h2 (List.any_eq_true.2 ⟨x, hx, by simp [h0]⟩)

/-- **C59** (key generation): for every stream of candidates of length `n = 2^k` and whatever the floating-point tests answer, a generated key satisfies the NTRU
equation over the integers, its `f` is invertible modulo `q`, and `h*f = g`. -/
theorem C59_keygen (P : PolyLib) (k : Nat) (A : Arith P (2 ^ k)) (K : KOracle) (rf : Nat)
    (tooLong : List Int → List Int → Bool) (cand : Nat → List Int × List Int) (hc : ∀ i, (cand i).1.length = 2 ^ k ∧ (cand i).2.length = 2 ^ k) (fuel : Nat) (sk : SecretKey)
    (h : keyGen P K rf tooLong cand (2 ^ k) fuel = some (.ok sk)) : IsKey (2 ^ k) sk := by
  unfold keyGen at h
  split at h
  · cases h
  · cases h
  · rename_i f g F G hg
    simp only [Option.some.injEq] at h
    obtain ⟨j, h1, _, h3, h4, _⟩ := ntruGen_spec P K rf tooLong cand f g F G fuel 0 hg
    have hf : f.length = 2 ^ k := by have := (hc (0 + j)).1; rwa [h1] at this
    have hgl : g.length = 2 ^ k := by have := (hc (0 + j)).2; rwa [h1] at this
    obtain ⟨rfl, rfl, rfl, rfl, l1, l2, l3, l4, l5, hp, hu⟩ := (C59_public_key P (2 ^ k) A f g F G).1 sk h
    refine ⟨l1, l2, l3, l4, l5, ?_, hp, hu⟩
    have hco := ntruSolve_coeffs K rf k sk.f sk.g sk.F sk.G hf hgl h4
    have hpos : 0 < 2 ^ k := Nat.two_pow_pos k
    apply List.ext_getElem (by simp; omega)
    intro i h1 h2
    have hi : i < 2 ^ k := by simpa using h1
    rw [List.getElem_zipWith]
    unfold negMul
    rw [List.getElem_map, List.getElem_map, List.getElem_range, hco i hi]
    cases i with
    | zero => rfl
    | succ i => simp

/-- **C59** (`ntru_gen` alone): a returned `f` is invertible modulo `q`, and `f*G - g*F = q` over the integers modulo `x^n+1`. -/
theorem C59_ntru_gen (P : PolyLib) (k : Nat) (w : Nat → ZMod 12289) (L : NttLaw P (2 ^ k) w) (K : KOracle) (rf : Nat)
    (tooLong : List Int → List Int → Bool) (cand : Nat → List Int × List Int) (hc : ∀ i, (cand i).1.length = 2 ^ k ∧ (cand i).2.length = 2 ^ k) (fuel : Nat)
    (f g F G : List Int) (h : ntruGen P K rf tooLong cand fuel 0 = some (.ok (f, g, F, G))) :
    (∃ i : List (ZMod 12289), i.length = 2 ^ k ∧ negMul (2 ^ k) (zq f) i = one (2 ^ k)) ∧
    ∀ i < 2 ^ k, negCoeff (2 ^ k) f G i - negCoeff (2 ^ k) g F i = if i = 0 then 12289 else 0 := by
  obtain ⟨j, h1, _, h3, h4, _⟩ := ntruGen_spec P K rf tooLong cand f g F G fuel 0 h
  have hf : f.length = 2 ^ k := by have := (hc (0 + j)).1; rwa [h1] at this
  have hg : g.length = 2 ^ k := by have := (hc (0 + j)).2; rwa [h1] at this
  exact ⟨(L.unit_iff (Nat.two_pow_pos k) f hf).1 h3, ntruSolve_coeffs K rf k f g F G hf hg h4⟩

/-- **C59** (no failure): for a candidate that passed the tests, the division `g / f` does not raise. -/
theorem C59_no_division_error (P : PolyLib) (k : Nat) (w : Nat → ZMod 12289) (L : NttLaw P (2 ^ k) w) (I : InvLaw P (2 ^ k)) (K : KOracle) (rf : Nat)
    (tooLong : List Int → List Int → Bool) (cand : Nat → List Int × List Int) (hc : ∀ i, (cand i).1.length = 2 ^ k ∧ (cand i).2.length = 2 ^ k) (fuel : Nat)
    (f g F G : List Int) (h : ntruGen P K rf tooLong cand fuel 0 = some (.ok (f, g, F, G))) : ∃ sk, keyGen P K rf tooLong cand (2 ^ k) fuel = some (.ok sk) := by
  obtain ⟨j, h1, _, h3, h4, _⟩ := ntruGen_spec P K rf tooLong cand f g F G fuel 0 h
  have hf : f.length = 2 ^ k := by have := (hc (0 + j)).1; rwa [h1] at this
  have hg : g.length = 2 ^ k := by have := (hc (0 + j)).2; rwa [h1] at this
  obtain ⟨k1, k2, _⟩ := ntruSolve_correct K rf k f g F G hf hg h4
  obtain ⟨c, hd⟩ := I.div_some g f hg hf ((L.unit_iff (Nat.two_pow_pos k) f hf).1 h3)
  refine ⟨⟨f, g, F, G, c⟩, ?_⟩
  unfold keyGen
  rw [h]
  dsimp only
  unfold mkSecretKey
  rw [if_pos ⟨hf, hg, k1, k2⟩, hd]

/-- **C27, C59 together**: every signature made with a generated key verifies under its public key. -/
theorem C27_generated_key {S : Type} (P : PolyLib) (X : Xof S) (k bound bytelen : Nat) (hpar : params (2 ^ k) = some (bound, bytelen))
    (A : Arith P (2 ^ k)) (K : KOracle) (rf : Nat) (tooLong : List Int → List Int → Bool) (cand : Nat → List Int × List Int)
    (hc : ∀ i, (cand i).1.length = 2 ^ k ∧ (cand i).2.length = 2 ^ k) (fuel : Nat) (sk : SecretKey) (h : keyGen P K rf tooLong cand (2 ^ k) fuel = some (.ok sk))
    (salt message : Bytes) (hs : salt.length = 40) (hsb : IsBytes salt) (z : List Int → Nat → List Int × List Int)
    (hz : ∀ c i, (z c i).1.length = 2 ^ k ∧ (z c i).2.length = 2 ^ k) (sig : Bytes)
    (hsig : SignReturns X (2 ^ k) bound bytelen salt message (fun c i => samplePreimage (2 ^ k) sk c (z c i)) sig) :
    VerifyReturns P X (2 ^ k) bound bytelen sk.h message sig true :=
  C27_sign_verify P X (2 ^ k) bound bytelen hpar A sk (C59_keygen P k A K rf tooLong cand hc fuel sk h) salt message hs hsb z hz sig hsig

/-! ## Non-vacuity -/

/-- rounding that never asks for a reduction step -/
def toyK : KOracle := fun _ _ _ _ => .ok fun _ => 0

/-- the first candidate has a zero transform, the second is not coprime, the third works -/
def toyCand (k : Nat) : List Int × List Int := if k = 0 then ([0, 0], [1, 0]) else if k = 1 then ([2, 0], [2, 0]) else ([3, 1], [2, 5])

example : ∃ sk, keyGen (lib 2) toyK 5 (fun _ _ => false) toyCand 2 5 = some (.ok sk) ∧ IsKey 2 sk ∧ sk.f = [3, 1] := by
  have hc : ∀ i, (toyCand i).1.length = 2 ^ 1 ∧ (toyCand i).2.length = 2 ^ 1 := by
    intro i; unfold toyCand; split
    · exact ⟨rfl, rfl⟩
    · split <;> exact ⟨rfl, rfl⟩
  have hg : ntruGen (lib 2) toyK 5 (fun _ _ => false) toyCand 5 0 = some (.ok ([3, 1], [2, 5], [24578, -61445], [110601, -36867])) := by decide +kernel
  obtain ⟨sk, hk⟩ := C59_no_division_error (lib 2) 1 (wk 1) (libNtt 1 (by decide) (by decide)) (libInv 1 (by decide) (by decide)) toyK 5 _ toyCand hc 5 _ _ _ _ hg
  refine ⟨sk, hk, C59_keygen (lib 2) 1 (libArith 1 (by decide) (by decide)) toyK 5 _ toyCand hc 5 sk hk, ?_⟩
  unfold keyGen at hk
  rw [hg] at hk
  simp only [Option.some.injEq] at hk
  exact ((C59_public_key (lib 2) 2 (libArith 1 (by decide) (by decide)) _ _ _ _).1 sk hk).1

end Verif.Falcon
