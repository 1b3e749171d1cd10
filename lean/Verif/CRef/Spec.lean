import Verif.Falcon.Spec
import Verif.NTT.Spec
import Verif.Contract.Spec

/-! # Specification for the C reference code, independent of the model -/

namespace Verif.CRef

open Verif Verif.Ring Verif.Falcon

/-- The range of `int16_t`. -/
def IsInt16 (x : ℤ) : Prop := -32768 ≤ x ∧ x ≤ 32767

/-- `n` canonical residues modulo 12289. -/
def Poly (n : ℕ) (a : List ℕ) : Prop := a.length = n ∧ ∀ x ∈ a, x < 12289

/-- `n` values of `int16_t`. -/
def Vec16 (n : ℕ) (s : List ℤ) : Prop := s.length = n ∧ ∀ x ∈ s, IsInt16 x

/-- The Falcon relation: some `s1` with coefficients in `[-6144, 6144]` satisfies `s1 + s2*h = c` in `Z_q[x]/(x^n+1)` and the pair `(s1, s2)` has squared norm at most `b`. -/
def Accepts (n b : ℕ) (h c : List ℕ) (s2 : List ℤ) : Prop :=
  ∃ s1 : List ℤ, s1.length = n ∧ (∀ x ∈ s1, -6144 ≤ x ∧ x ≤ 6144) ∧
    List.zipWith (· + ·) (zq s1) (negMul n (zq s2) (NTT.toZ 12289 h)) = NTT.toZ 12289 c ∧ normSq s1 + normSq s2 ≤ b

/-- The polynomial is a unit of `Z_q[x]/(x^n+1)`. -/
def IsUnitPoly (n : ℕ) (a : List (ZMod 12289)) : Prop := ∃ i : List (ZMod 12289), i.length = n ∧ negMul n a i = one n

end Verif.CRef
