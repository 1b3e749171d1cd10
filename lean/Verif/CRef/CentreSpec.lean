import Verif.CRef.TreeSpec
import Verif.CRef.SignSamplerProps

/-! # Specification: the centres the signer passes to the sampler -/

namespace Verif.CRef.Fft

open Verif.CRef.Fpr Verif.CRef.SignDyn Verif.CRef.SignSampler

/-- A centre the sampler is made for (the hypotheses of C98): the word stands for a number, neither infinite nor undefined, and its floor fits into 32 bits. -/
def Centre (mu : W) : Prop := expo mu ≠ 2047 ∧ |val mu| < 2 ^ 31

/-- Every answer of the sampler to a suiting question is within 20 of the centre. -/
def Near {σ : Type} (k : ℕ) (samp : Samp σ) : Prop := ∀ st mu isigma z st', Suits k isigma → Centre mu → samp st mu isigma = some (z, st') → |(z : ℝ) - val mu| ≤ 20

/-- The sampler `samp` with a record of every pair `mu`, `isigma` it was called with, in order. -/
def watched {σ : Type} (samp : Samp σ) : Samp (σ × List (W × W)) := fun st mu isigma => (samp st.1 mu isigma).map fun r => (r.1, (r.2, st.2 ++ [(mu, isigma)]))

/-- Rejection sampling with the integer centre `m mu isigma` and the thresholds `T mu isigma` (C98). -/
def rejection (m : W → W → ℤ) (T : W → W → ℕ → ℕ → ℕ) (fuel : ℕ) : Samp Prng.Prng := fun p mu isigma => trials (m mu isigma) (T mu isigma) fuel p

/-- The thresholds are those of the discrete Gaussian distribution of centre `mu` and deviation `1 / isigma`: a candidate `m + z` is kept with a probability within `2^-41` of
`(sigma_min / sigma) · exp(-((m + z - mu)² / (2 sigma²) - z0² / (2 · 1.8205²)))`. -/
def Gaussian (k : ℕ) (m : W → W → ℤ) (T : W → W → ℕ → ℕ → ℕ) : Prop := ∀ mu isigma, Centre mu → Suits k isigma → 0 ≤ val mu - m mu isigma ∧ val mu - m mu isigma ≤ 1 ∧ ∀ z0 b, z0 ≤ 18 → b < 2 → T mu isigma z0 b < 2 ^ 64 ∧
  |(T mu isigma z0 b : ℝ) / 2 ^ 64 - val isigma * val sigmaMin[k]! * Real.exp (-(((m mu isigma + candidate z0 b : ℤ) - val mu) ^ 2 * val isigma ^ 2 / 2 - z0 ^ 2 / (2 * 1.8205 ^ 2)))| ≤ 1 / 2 ^ 41

end Verif.CRef.Fft
