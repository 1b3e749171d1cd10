import Verif.CRef.FprSpec
import Mathlib.Analysis.SpecialFunctions.Complex.Circle
import Mathlib.Analysis.SpecialFunctions.Trigonometric.Basic

/-! # Specification of the transform: values of a real polynomial at roots of `X^n + 1` -/

namespace Verif.CRef.Fft

/-- Reversal of the `k` low bits of `j`. -/
def bitrev : ℕ → ℕ → ℕ
  | 0, _ => 0
  | k + 1, j => (j % 2) * 2 ^ k + bitrev k (j / 2)

/-- The root of `X^n + 1`, `n = 2^k`, for slot `u`: `exp(i π (4 rev(u) + 1) / n)`, `rev` over `k - 1` bits. -/
noncomputable def root (k u : ℕ) : ℂ := Complex.exp ((4 * bitrev (k - 1) u + 1 : ℕ) * Real.pi * Complex.I / 2 ^ k)

/-- Value at `w` of the polynomial with coefficients `f 0, …, f (2^k - 1)`. -/
noncomputable def pev (k : ℕ) (f : ℕ → ℝ) (w : ℂ) : ℂ := ∑ j ∈ Finset.range (2 ^ k), (f j : ℂ) * w ^ j

end Verif.CRef.Fft
