import Verif.CRef.FftSpec

/-! # Specification: the orthogonalized vector of a key -/

namespace Verif.CRef.Orth

open Verif.CRef.Fft

/-- The value of an integer polynomial of degree less than `2^k`. -/
noncomputable def value (k : ℕ) (f : List ℤ) (w : ℂ) : ℂ := pev k (fun j => (f.getD j 0 : ℝ)) w

/-- `f f* + g g*` at the root `w`. -/
noncomputable def gramAt (k : ℕ) (f g : List ℤ) (w : ℂ) : ℝ := ‖value k f w‖ ^ 2 + ‖value k g w‖ ^ 2

/-- `(r1, r2)` are the real coefficients of `(q f* / (f f* + g g*), q g* / (f f* + g g*))` in `R[x]/(x^n + 1)`: the quotients are defined and hold at every root of `x^n + 1`, where the adjoint is the conjugate. -/
def IsOrth (k : ℕ) (f g : List ℤ) (r1 r2 : ℕ → ℝ) : Prop := ∀ w : ℂ, w ^ 2 ^ k = -1 →
  gramAt k f g w ≠ 0 ∧ pev k r1 w = 12289 * (starRingEnd ℂ) (value k f w) / (gramAt k f g w : ℂ) ∧ pev k r2 w = 12289 * (starRingEnd ℂ) (value k g w) / (gramAt k f g w : ℂ)

/-- The squared euclidean norm. -/
noncomputable def sqNorm (k : ℕ) (r1 r2 : ℕ → ℝ) : ℝ := ∑ j ∈ Finset.range (2 ^ k), (r1 j ^ 2 + r2 j ^ 2)

end Verif.CRef.Orth
