import Verif.Falcon.Model
import Verif.Contract.Model
import Mathlib.Data.Rat.Floor
import Mathlib.Tactic.NormNum
import Mathlib.Tactic.IntervalCases

/-! # C67: the parameter table `Params` (falcon.py) against the formulas of scripts/parameters.py -/

namespace Verif.Falcon

/-- `sigma` and `sigmin` of `Params[n]`, falcon.py 55-136, as the exact decimal numbers written in the source. -/
def sigmas : ℕ → Option (ℚ × ℚ)
  | 2 => some (14481253976308423 / 10 ^ 14, 11165085072329104 / 10 ^ 16)
  | 4 => some (14683798833523608 / 10 ^ 14, 11321247692325274 / 10 ^ 16)
  | 8 => some (14883587593064718 / 10 ^ 14, 1147528535373367 / 10 ^ 15)
  | 16 => some (15178340713845503 / 10 ^ 14, 1170254078853483 / 10 ^ 15)
  | 32 => some (1546747794602761 / 10 ^ 13, 11925466358390344 / 10 ^ 16)
  | 64 => some (15751308555044122 / 10 ^ 14, 12144300507766141 / 10 ^ 16)
  | 128 => some (16030114421975344 / 10 ^ 14, 1235926056771981 / 10 ^ 15)
  | 256 => some (16304153322607107 / 10 ^ 14, 12570545284063217 / 10 ^ 16)
  | 512 => some (1657366171829776 / 10 ^ 13, 12778336969128337 / 10 ^ 16)
  | 1024 => some (16838857144654395 / 10 ^ 14, 1298280334344292 / 10 ^ 15)
  | _ => none

/-- Specification: the table `sig_bytesize`, scripts/parameters.py 152-163. -/
def sigBytesize : ℕ → ℕ
  | 2 => 44 | 4 => 47 | 8 => 52 | 16 => 63 | 32 => 82 | 64 => 122 | 128 => 200 | 256 => 356 | 512 => 666 | 1024 => 1280 | _ => 0

/-- Specification: `sigmax`, scripts/parameters.py 31, and `MAX_SIGMA`, samplerz.py 10. -/
def maxSigma : ℚ := 18205 / 10 ^ 4

theorem floor_bound {x : ℚ} {b : ℕ} (h1 : (b : ℚ) ≤ x) (h2 : x < b + 1) : (b : ℤ) = ⌊x⌋ := by
  symm; rw [Int.floor_eq_iff]; exact ⟨by exact_mod_cast h1, by exact_mod_cast h2⟩

/-- **C67**: for every parameter set, `sig_bound` is `⌊(1.1 · √(2n) · sigma)²⌋`, `sig_bytelen` is the tabulated size, `n` is the power of two given by `logn`,
`sigma² = 1.17² · q · sigmin²` up to `10⁻¹⁰`, and the sampler's precondition `1 < sigmin ≤ 1.17² · sigmin ≤ MAX_SIGMA` holds. -/
theorem C67_params (n bound bytelen : ℕ) (h : params n = some (bound, bytelen)) :
    ∃ sigma sigmin : ℚ, sigmas n = some (sigma, sigmin) ∧ (bound : ℤ) = ⌊(11 / 10 : ℚ) ^ 2 * (2 * n) * sigma ^ 2⌋ ∧ bytelen = sigBytesize n ∧ n = 2 ^ logn n ∧
      |sigma ^ 2 - (117 / 100) ^ 2 * 12289 * sigmin ^ 2| ≤ 1 / 10 ^ 10 ∧ 1 < sigmin ∧ (117 / 100) ^ 2 * sigmin ≤ maxSigma := by
  unfold params at h
  split at h <;> cases h <;>
  · refine ⟨_, _, rfl, floor_bound ?_ ?_, rfl, rfl, ?_, ?_, ?_⟩
    all_goals (first | (rw [abs_le]; constructor <;> norm_num) | norm_num [maxSigma])

/-- **C67**: the ten sets of the table are exactly `n = 2, 4, ..., 1024`. -/
theorem C67_domain (n : ℕ) : (∃ p, params n = some p) ↔ ∃ k, 1 ≤ k ∧ k ≤ 10 ∧ n = 2 ^ k := by
  constructor
  · rintro ⟨p, h⟩
    unfold params at h
    split at h
    exacts [⟨1, by decide⟩, ⟨2, by decide⟩, ⟨3, by decide⟩, ⟨4, by decide⟩, ⟨5, by decide⟩, ⟨6, by decide⟩, ⟨7, by decide⟩, ⟨8, by decide⟩, ⟨9, by decide⟩,
      ⟨10, by decide⟩, by cases h]
  · rintro ⟨k, h1, h2, rfl⟩
    interval_cases k <;> exact ⟨_, rfl⟩

/-- **C67**: the contract's bound is that of the 512 parameter set. -/
theorem C67_contract : params 512 = some (Contract.sigBound, 666) := rfl

example : params 512 = some (34034726, 666) ∧ sigmas 512 = some (165.7366171829776, 1.2778336969128337) := by
  constructor
  · rfl
  · norm_num [sigmas]

end Verif.Falcon
