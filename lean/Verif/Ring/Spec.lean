import Mathlib.Algebra.Polynomial.Basic
import Mathlib.Algebra.Polynomial.Eval.Defs
import Mathlib.Algebra.BigOperators.Ring.Finset

/-! # Specification for the ring properties

Independent of the model: coefficient lists as polynomials, congruence modulo `X^n + 1`, schoolbook negacyclic product. -/

namespace Verif.Ring

open Polynomial Finset

variable {R : Type} [CommRing R]

/-- The polynomial `Σ l[i] X^i`. -/
noncomputable def toPoly (l : List R) : R[X] := ∑ i ∈ range l.length, C (l.getD i 0) * X ^ i

/-- Congruence modulo `X^n + 1`: equality in `R[x]/(x^n+1)`. -/
def NegEq (n : ℕ) (p q : R[X]) : Prop := (X ^ n + 1 : R[X]) ∣ p - q

/-- Coefficient `k` of the schoolbook product modulo `x^n + 1`: `Σ_{i+j=k} a_i b_j - Σ_{i+j=k+n} a_i b_j`. -/
def negCoeff (n : ℕ) (a b : List R) (k : ℕ) : R :=
  ∑ i ∈ range n, ∑ j ∈ range n,
    if i + j = k then a.getD i 0 * b.getD j 0 else if i + j = k + n then -(a.getD i 0 * b.getD j 0) else 0

/-- The schoolbook negacyclic product of two lists of length `n`. -/
def negMul (n : ℕ) (a b : List R) : List R := (List.range n).map (negCoeff n a b)

end Verif.Ring
