import Verif.CRef.Spec

/-! # Specification for key generation, independent of the model -/

namespace Verif.CRef

open Verif.Ring Verif.Falcon

/-- The NTRU equation `f*G - g*F = q` in `Z[x]/(x^n+1)`, on coefficient lists. -/
def IsNtru (n : ℕ) (f g F G : List ℤ) : Prop :=
  f.length = n ∧ g.length = n ∧ F.length = n ∧ G.length = n ∧
  ∀ i < n, (negMul n f G).getD i 0 - (negMul n g F).getD i 0 = if i = 0 then 12289 else 0

/-- All coefficients lie in `[-b, b]`. -/
def Within (b : ℤ) (a : List ℤ) : Prop := ∀ x ∈ a, -b ≤ x ∧ x ≤ b

/-- A Falcon key of degree `n`: `f` and `g` with coefficients in `[-bf, bf]`, odd coefficient sums and joint squared norm at most 16822 (`(1.17)^2 q`), `F` and `G` with coefficients in
`[-127, 127]` that solve the NTRU equation, `f` invertible modulo q, and the public key `h = g/f`. -/
structure IsFalconKey (n : ℕ) (bf : ℤ) (f g F G : List ℤ) (h : List ℕ) : Prop where
  ntru : IsNtru n f g F G
  fBound : Within bf f
  gBound : Within bf g
  FBound : Within 127 F
  GBound : Within 127 G
  fOdd : f.sum % 2 = 1
  gOdd : g.sum % 2 = 1
  norm : normSq f + normSq g ≤ 16822
  unit : IsUnitPoly n (zq f)
  canon : Poly n h
  pub : negMul n (NTT.toZ 12289 h) (zq f) = zq g

end Verif.CRef
