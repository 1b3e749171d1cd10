import Verif.Ring.Spec
import Mathlib.Algebra.Star.Basic
import Mathlib.Algebra.Field.Basic
import Mathlib.Algebra.BigOperators.Ring.Finset
import Mathlib.LinearAlgebra.Matrix.ConjTranspose
import Mathlib.LinearAlgebra.Matrix.Notation

/-! # Specification for the FFT properties

Nothing here mentions the model: evaluation of a real polynomial, the adjoint, and what is asked of the tables of roots. -/

namespace Verif.FFT

open Finset

variable {K : Type} [Field K] [StarRing K]

/-- The list `[φ 0, …, φ (n-1)]`. -/
def vec (n : Nat) (φ : Nat → K) : List K := (List.range n).map φ

/-- `f(r) = Σ f[i] r^i`. -/
def evalAt (r : K) (f : List K) : K := ∑ i ∈ range f.length, f.getD i 0 * r ^ i

/-- All coefficients are fixed by the conjugation ("real"). -/
def Real' (f : List K) : Prop := ∀ x ∈ f, star x = x

/-- The adjoint of a polynomial modulo `x^n + 1`, `f(1/x)`: coefficients `f_0, -f_{n-1}, …, -f_1`. -/
def adjSpec (f : List K) : List K := vec f.length fun i => if i = 0 then f.getD 0 0 else -f.getD (f.length - i) 0

/-- What the tables of `fft_constants.py` satisfy when their decimals are read as the exact numbers they approximate ("computed with scripts/generate_constants.sage"):
the roots of `x^2+1` are `I, -I`; the entries `2i` and `2i+1` of a table are the two square roots of entry `i` of the previous one; all of them have modulus 1. -/
structure RootLaw (R : Nat → Nat → K) (I : K) : Prop where
  two : (2 : K) ≠ 0
  sqI : I * I = -1
  starI : star I = -I
  base : R 2 0 = I
  sq : ∀ k i, 1 ≤ k → k < 10 → i < 2 ^ k → R (2 ^ (k + 1)) (2 * i) ^ 2 = R (2 ^ k) i
  neg : ∀ k i, 1 ≤ k → k ≤ 10 → i < 2 ^ (k - 1) → R (2 ^ k) (2 * i + 1) = -R (2 ^ k) (2 * i)
  unit : ∀ k i, 1 ≤ k → k ≤ 10 → i < 2 ^ k → R (2 ^ k) i * star (R (2 ^ k) i) = 1

/-- A vector of values that conjugate roots carry to conjugate values: what transforms of real polynomials satisfy. -/
def SelfConj (R : Nat → Nat → K) (F : List K) : Prop :=
  ∀ i j, i < F.length → j < F.length → R F.length j = star (R F.length i) → F.getD j 0 = star (F.getD i 0)

/-! ## Matrices of polynomials -/

/-- Sum of polynomials of length `n`. -/
def polyAdd (n : Nat) (f g : List K) : List K := vec n fun i => f.getD i 0 + g.getD i 0

/-- Product of 2 × 2 matrices of polynomials modulo `x^n + 1`. -/
def pmatMul (n : Nat) (A B : Matrix (Fin 2) (Fin 2) (List K)) : Matrix (Fin 2) (Fin 2) (List K) :=
  fun i j => polyAdd n (Ring.negMul n (A i 0) (B 0 j)) (Ring.negMul n (A i 1) (B 1 j))

/-- Adjoint of a 2 × 2 matrix of polynomials: transpose and adjoint of the entries. -/
def pmatAdj (A : Matrix (Fin 2) (Fin 2) (List K)) : Matrix (Fin 2) (Fin 2) (List K) := fun i j => adjSpec (A j i)

/-- The constant polynomials 0 and 1. -/
def poly0 (n : Nat) : List K := vec n fun _ => 0
def poly1 (n : Nat) : List K := vec n fun i => if i = 0 then 1 else 0

end Verif.FFT
