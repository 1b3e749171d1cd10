import Verif.Bits
import Verif.Sampler.Model
import Mathlib.Analysis.SpecialFunctions.Exp
import Mathlib.Topology.Algebra.InfiniteSum.Basic

/-! # Specification for the sampler properties -/

namespace Verif.Sampler

/-- A source that delivers as many bytes as it is asked for. -/
def Honest {S : Type} (R : Rng S) : Prop := ∀ k s, (R k s).1.length = k ∧ IsBytes (R k s).1

/-- The number written in base 256 by the digits `l`, most significant first. -/
def be : List ℕ → ℕ
  | [] => 0
  | d :: l => d * 256 ^ l.length + be l

/-- The next `n` single bytes of the source. -/
def draws {S : Type} (R : Rng S) : ℕ → S → List ℕ
  | 0, _ => []
  | n + 1, s => le (R 1 s).1 :: draws R n (R 1 s).2

/-- Half-Gaussian weight of `j` for the standard deviation `sigma`, `sigma² = v`. -/
noncomputable def weight (v : ℝ) (j : ℕ) : ℝ := Real.exp (-(j : ℝ) ^ 2 / (2 * v))

/-- Probability that a half-Gaussian variable on `0, 1, 2, ...` of variance parameter `v` exceeds `k`. -/
noncomputable def tailProb (v : ℝ) (k : ℕ) : ℝ := (∑' j, weight v (k + 1 + j)) / ∑' j, weight v j

end Verif.Sampler
