import Verif.CRef.SignDyn
import Verif.CRef.FprSpec

/-! # Specification: what the signer passes to the sampler -/

namespace Verif.CRef.Fft

open Verif.CRef.Fpr Verif.CRef.SignDyn Verif.CRef.SignSampler

/-- The inverse of the deviation suits the sampler in degree `2^k` (these are the hypotheses of C98): it is not negative and at most 1, the deviation is at most that of the base sampler
(`1 / (2 sigma_0^2) ≤ isigma^2 / 2`), and `isigma * sigma_min`, the factor of the acceptance probability, lies in `[1/2, 1)`. -/
def Suits (k : ℕ) (isigma : W) : Prop := 0 ≤ val isigma ∧ val isigma ≤ 1 ∧ 2 * val inv2sqrsigma0 ≤ val isigma ^ 2 ∧ 1 / 2 ≤ val isigma * val sigmaMin[k]! ∧ val isigma * val sigmaMin[k]! ≤ 1 - 1 / 2 ^ 53

/-- The sampler `samp` with a record of every `isigma` it was called with, in order. -/
def spied {σ : Type} (samp : Samp σ) : Samp (σ × List W) := fun st mu isigma => (samp st.1 mu isigma).map fun r => (r.1, (r.2, st.2 ++ [isigma]))

end Verif.CRef.Fft
