import Verif.FFT.Spec
import Mathlib.Analysis.Complex.Norm
import Mathlib.Analysis.Complex.Basic
import Mathlib.Tactic.Ring
import Mathlib.Tactic.LinearCombination
import Mathlib.Tactic.FieldSimp
import Mathlib.Tactic.Positivity

/-! # The exact roots

The complex numbers that the decimals of `fft_constants.py` approximate (see `FFT/Table.lean`), and the proof that they satisfy `RootLaw`. -/

namespace Verif.FFT

open Complex

/-- The square root with positive real part of a complex number of modulus 1 other than -1. -/
noncomputable def principal (v : ℂ) : ℂ := (1 + v) / (‖1 + v‖ : ℝ)

/-- Entry `i` of the table of the roots of `x^(2^k) + 1`, `k ≥ 1`: `[i, -i]`, then the two square roots of each entry of the previous table, the one with positive real part first. -/
noncomputable def exactLevel : Nat → Nat → ℂ
  | 0, _ => 0
  | 1, i => if i = 0 then Complex.I else -Complex.I
  | k + 2, i => if i % 2 = 0 then principal (exactLevel (k + 1) (i / 2)) else -principal (exactLevel (k + 1) (i / 2))

/-- `roots_dict[n][i]`, exactly. -/
noncomputable def exactRoots (n i : Nat) : ℂ := exactLevel (Nat.log2 n) i

theorem principal_sq {v : ℂ} (hv : v * star v = 1) (h1 : v ≠ -1) : principal v ^ 2 = v := by
  have h0 : 1 + v ≠ 0 := fun h => h1 (by linear_combination h)
  have hn : ((‖1 + v‖ : ℝ) : ℂ) ^ 2 = (1 + v) * star (1 + v) := by
    have := Complex.mul_conj (1 + v)
    rw [Complex.normSq_eq_norm_sq] at this
    rw [star_def, this]; push_cast; rfl
  have hn0 : (1 + v) * star (1 + v) ≠ 0 := mul_ne_zero h0 (star_ne_zero.2 h0)
  unfold principal
  rw [div_pow, hn, div_eq_iff hn0, star_add, star_one]
  linear_combination (1 + v) * (-hv)

theorem principal_unit {v : ℂ} (h1 : v ≠ -1) : principal v * star (principal v) = 1 := by
  have h0 : 1 + v ≠ 0 := fun h => h1 (by linear_combination h)
  have hn : ((‖1 + v‖ : ℝ) : ℂ) ^ 2 = (1 + v) * star (1 + v) := by
    have := Complex.mul_conj (1 + v)
    rw [Complex.normSq_eq_norm_sq] at this
    rw [star_def, this]; push_cast; rfl
  have hn0 : ((‖1 + v‖ : ℝ) : ℂ) ≠ 0 := by simpa using h0
  unfold principal
  rw [star_div₀]
  have : star ((‖1 + v‖ : ℝ) : ℂ) = ((‖1 + v‖ : ℝ) : ℂ) := Complex.conj_ofReal _
  rw [this, div_mul_div_comm, div_eq_iff (mul_ne_zero hn0 hn0), one_mul, ← pow_two, hn]

theorem principal_re {v : ℂ} (hv : v * star v = 1) (h1 : v ≠ -1) : 0 < (principal v).re := by
  have h0 : 1 + v ≠ 0 := fun h => h1 (by linear_combination h)
  have hn : 0 < ‖1 + v‖ := norm_pos_iff.2 h0
  have hsq : v.re * v.re + v.im * v.im = 1 := by
    have := congrArg Complex.re hv
    simpa using this
  unfold principal
  rw [Complex.div_ofReal_re, Complex.add_re, Complex.one_re]
  apply div_pos _ hn
  rcases lt_or_ge (-1) v.re with h | h
  · linarith
  · exfalso
    have hre : v.re = -1 := by nlinarith [mul_self_nonneg v.im]
    have him : v.im = 0 := by
      have : v.im * v.im = 0 := by rw [hre] at hsq; linarith
      exact mul_self_eq_zero.1 this
    exact h1 (Complex.ext (by simpa using hre) (by simpa using him))

theorem exactLevel_even (k i : Nat) : exactLevel (k + 2) (2 * i) = principal (exactLevel (k + 1) i) := by
  show (if (2 * i) % 2 = 0 then _ else _) = _
  rw [if_pos (by omega), show 2 * i / 2 = i by omega]

theorem exactLevel_odd (k i : Nat) : exactLevel (k + 2) (2 * i + 1) = -principal (exactLevel (k + 1) i) := by
  show (if (2 * i + 1) % 2 = 0 then _ else _) = _
  rw [if_neg (by omega), show (2 * i + 1) / 2 = i by omega]

theorem exactLevel_spec (k : Nat) : ∀ i, exactLevel (k + 1) i * star (exactLevel (k + 1) i) = 1 ∧ exactLevel (k + 1) i ^ 2 ^ (k + 1) = -1 := by
  induction k with
  | zero =>
    intro i
    show (if i = 0 then Complex.I else -Complex.I) * star (if i = 0 then Complex.I else -Complex.I) = 1 ∧ (if i = 0 then Complex.I else -Complex.I) ^ 2 = -1
    split <;> simp
  | succ k ih =>
    have hne : ∀ i, exactLevel (k + 1) i ≠ -1 := by
      intro i h
      have := (ih i).2
      rw [h, pow_succ 2 k, mul_comm, pow_mul, neg_one_sq, one_pow] at this
      norm_num at this
    have main : ∀ i, principal (exactLevel (k + 1) i) * star (principal (exactLevel (k + 1) i)) = 1 ∧ principal (exactLevel (k + 1) i) ^ 2 ^ (k + 2) = -1 := by
      intro i
      refine ⟨principal_unit (hne i), ?_⟩
      rw [pow_succ 2 (k + 1), mul_comm, pow_mul, principal_sq (ih i).1 (hne i), (ih i).2]
    intro i
    rcases Nat.even_or_odd' i with ⟨j, rfl | rfl⟩
    · rw [exactLevel_even]; exact main j
    · rw [exactLevel_odd]
      refine ⟨by rw [star_neg, neg_mul_neg]; exact (main j).1, ?_⟩
      rw [pow_succ 2 (k + 1), mul_comm, pow_mul, neg_sq, ← pow_mul, mul_comm, ← pow_succ]; exact (main j).2

theorem exactLevel_ne (k i : Nat) : exactLevel (k + 1) i ≠ -1 := by
  intro h
  have := (exactLevel_spec k i).2
  rw [h, pow_succ 2 k, mul_comm, pow_mul, neg_one_sq, one_pow] at this
  norm_num at this

theorem exactLevel_sq (k i : Nat) : exactLevel (k + 2) (2 * i) ^ 2 = exactLevel (k + 1) i := by
  rw [exactLevel_even, principal_sq (exactLevel_spec k i).1 (exactLevel_ne k i)]

theorem exactRoots_pow (k i : Nat) : exactRoots (2 ^ k) i = exactLevel k i := by
  unfold exactRoots; rw [Nat.log2_two_pow]

/-- The exact tables satisfy what the FFT theorems ask for. -/
theorem exactRoots_law : RootLaw exactRoots Complex.I where
  two := two_ne_zero
  sqI := Complex.I_mul_I
  starI := by simp
  base := by
    have := exactRoots_pow 1 0
    rw [show 2 ^ 1 = 2 from rfl] at this
    rw [this]; rfl
  sq := by
    intro k i h1 _ _
    obtain ⟨k, rfl⟩ : ∃ j, k = j + 1 := ⟨k - 1, by omega⟩
    rw [exactRoots_pow, exactRoots_pow]; exact exactLevel_sq k i
  neg := by
    intro k i h1 _ hi
    rw [exactRoots_pow, exactRoots_pow]
    rcases k with _ | _ | k
    · omega
    · simp at hi; subst hi; rfl
    · rw [exactLevel_odd, exactLevel_even]
  unit := by
    intro k i h1 _ _
    obtain ⟨k, rfl⟩ : ∃ j, k = j + 1 := ⟨k - 1, by omega⟩
    rw [exactRoots_pow]; exact (exactLevel_spec k i).1

end Verif.FFT
