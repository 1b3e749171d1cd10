import Verif.FFT.Exact
import Verif.FFT.TableData
import Mathlib.Tactic.NormNum
import Mathlib.Tactic.IntervalCases
import Mathlib.Tactic.Linarith

/-! # The tables of `fft_constants.py` against the exact roots -/

namespace Verif.FFT.Table

open Complex

/-- `roots_dict[2^k]`, fft_constants.py 2112-2122, times 10^17. -/
def tbl : Nat → List (Int × Int)
  | 1 => t1 | 2 => t2 | 3 => t3 | 4 => t4 | 5 => t5 | 6 => t6 | 7 => t7 | 8 => t8 | 9 => t9 | 10 => t10 | _ => []

/-- Each pair of entries of the next table is `t, -t` with `t² ≈ v` and `Re t > 0`. -/
def okNext : List (Int × Int) → List (Int × Int) → Bool
  | [], [] => true
  | (a, b) :: ps, (x, y) :: (x', y') :: ns =>
    x' == -x && y' == -y && decide (10 ^ 14 ≤ x) && decide (x * x - y * y - a * 10 ^ 17 ≤ 2 * 10 ^ 19) && decide (-(2 * 10 ^ 19) ≤ x * x - y * y - a * 10 ^ 17) &&
    decide (2 * x * y - b * 10 ^ 17 ≤ 2 * 10 ^ 19) && decide (-(2 * 10 ^ 19) ≤ 2 * x * y - b * 10 ^ 17) && okNext ps ns
  | _, _ => false

theorem okNext_spec : ∀ (ps ns : List (Int × Int)), okNext ps ns = true → ns.length = 2 * ps.length ∧ ∀ i, i < ps.length →
    ns.getD (2 * i + 1) 0 = -ns.getD (2 * i) 0 ∧ 10 ^ 14 ≤ (ns.getD (2 * i) 0).1 ∧
    |(ns.getD (2 * i) 0).1 * (ns.getD (2 * i) 0).1 - (ns.getD (2 * i) 0).2 * (ns.getD (2 * i) 0).2 - (ps.getD i 0).1 * 10 ^ 17| ≤ 2 * 10 ^ 19 ∧
    |2 * (ns.getD (2 * i) 0).1 * (ns.getD (2 * i) 0).2 - (ps.getD i 0).2 * 10 ^ 17| ≤ 2 * 10 ^ 19 := by
  intro ps ns
  fun_induction okNext ps ns with
  | case1 => intro _; exact ⟨rfl, fun i h => absurd h (by simp)⟩
  | case2 a b ps x y x' y' ns ih =>
    intro h
    simp only [Bool.and_eq_true, beq_iff_eq, decide_eq_true_eq] at h
    obtain ⟨⟨⟨⟨⟨⟨⟨h1, h2⟩, h3⟩, h4⟩, h5⟩, h6⟩, h7⟩, h8⟩ := h
    obtain ⟨hl, hi⟩ := ih h8
    refine ⟨by simp [hl]; omega, ?_⟩
    intro i hlt
    rcases i with _ | i
    · refine ⟨?_, h3, abs_le.2 ⟨h5, h4⟩, abs_le.2 ⟨h7, h6⟩⟩
      show (x', y') = -(x, y)
      rw [h1, h2]; rfl
    · have := hi i (by simpa using hlt)
      rw [show 2 * (i + 1) = 2 * i + 1 + 1 by ring]
      simpa only [List.getD_cons_succ] using this
  | case3 ps ns h1 h2 => intro h; simp at h

set_option maxRecDepth 100000 in
theorem ok_all : okNext t1 t2 = true ∧ okNext t2 t3 = true ∧ okNext t3 t4 = true ∧ okNext t4 t5 = true ∧ okNext t5 t6 = true ∧ okNext t6 t7 = true ∧ okNext t7 t8 = true ∧
    okNext t8 t9 = true ∧ okNext t9 t10 = true := by decide +kernel

theorem ok_step {k : Nat} (h1 : 1 ≤ k) (h2 : k < 10) : okNext (tbl k) (tbl (k + 1)) = true := by
  obtain ⟨a1, a2, a3, a4, a5, a6, a7, a8, a9⟩ := ok_all
  interval_cases k
  exacts [a1, a2, a3, a4, a5, a6, a7, a8, a9]

theorem length_tbl {k : Nat} (h1 : 1 ≤ k) (h2 : k ≤ 10) : (tbl k).length = 2 ^ k := by
  induction k, h1 using Nat.le_induction with
  | base => rfl
  | succ k h1 ih => rw [(okNext_spec _ _ (ok_step h1 (by omega))).1, ih (by omega), pow_succ]; ring

/-- The complex number written in `fft_constants.py`. -/
noncomputable def tableC (k i : Nat) : ℂ := ⟨(((tbl k).getD i 0).1 : ℝ) / 10 ^ 17, (((tbl k).getD i 0).2 : ℝ) / 10 ^ 17⟩

theorem norm_le_parts (z : ℂ) {e : ℝ} (h1 : |z.re| ≤ e) (h2 : |z.im| ≤ e) : ‖z‖ ≤ 2 * e := by
  have := Complex.norm_le_abs_re_add_abs_im z
  linarith

/-- The argument for one level. -/
theorem step {t s v e : ℂ} (hts : ‖t ^ 2 - v‖ ≤ 4e-15) (hv : ‖v - e‖ ≤ 5e-15) (hs : s ^ 2 = e) (hs1 : ‖s‖ = 1) (hsr : 0 < s.re) (htr : 1e-3 ≤ t.re) : ‖t - s‖ ≤ 5e-15 := by
  have hp0 := norm_nonneg (t - s)
  have hr0 := norm_nonneg (t + s)
  have hprod : ‖t - s‖ * ‖t + s‖ ≤ 9e-15 := by
    rw [← norm_mul]
    calc ‖(t - s) * (t + s)‖ = ‖(t ^ 2 - v) + (v - e)‖ := by rw [← hs]; congr 1; ring
      _ ≤ ‖t ^ 2 - v‖ + ‖v - e‖ := norm_add_le _ _
      _ ≤ 9e-15 := by linarith
  have hpar : ‖t - s‖ * ‖t - s‖ + ‖t + s‖ * ‖t + s‖ = 2 * (‖t‖ * ‖t‖ + 1) := by
    have n : ∀ z : ℂ, ‖z‖ * ‖z‖ = z.re * z.re + z.im * z.im := fun z => by rw [← pow_two, ← Complex.normSq_eq_norm_sq, Complex.normSq_apply]
    have h := n s
    rw [hs1] at h
    rw [n, n, n, Complex.sub_re, Complex.sub_im, Complex.add_re, Complex.add_im]
    linarith
  have he : ‖e‖ = 1 := by rw [← hs, norm_pow, hs1]; norm_num
  have ht2 : 1 - 9e-15 ≤ ‖t‖ * ‖t‖ := by
    have h1 : ‖t ^ 2‖ = ‖t‖ * ‖t‖ := by rw [norm_pow]; ring
    have h2 : ‖e‖ ≤ ‖t ^ 2‖ + ‖t ^ 2 - v‖ + ‖v - e‖ := by
      calc ‖e‖ = ‖t ^ 2 - (t ^ 2 - v) - (v - e)‖ := by congr 1; ring
        _ ≤ ‖t ^ 2 - (t ^ 2 - v)‖ + ‖v - e‖ := norm_sub_le _ _
        _ ≤ _ := by have := norm_sub_le (t ^ 2) (t ^ 2 - v); linarith
    rw [he, h1] at h2
    linarith
  have hr : 1e-3 ≤ ‖t + s‖ := by
    have := Complex.re_le_norm (t + s)
    rw [Complex.add_re] at this
    linarith
  have hp1 : ‖t - s‖ ≤ 1e-11 := by
    by_contra h
    push Not at h
    nlinarith
  have hr19 : 1.9 ≤ ‖t + s‖ := by
    by_contra h
    push Not at h
    nlinarith
  by_contra h
  push Not at h
  nlinarith

/-- Every constant of `fft_constants.py` is within 5·10⁻¹⁵ of the exact root it stands for, at every index of every table. -/
theorem table_close {k : Nat} (h1 : 1 ≤ k) (h2 : k ≤ 10) : ∀ i < 2 ^ k, ‖tableC k i - exactRoots (2 ^ k) i‖ ≤ 5e-15 := by
  induction k, h1 using Nat.le_induction with
  | base =>
    intro i hi
    have hi : i < 2 := hi
    rw [exactRoots_pow]
    have h0 : tableC 1 i = exactLevel 1 i := by
      rcases (by omega : i = 0 ∨ i = 1) with rfl | rfl
      · apply Complex.ext <;> norm_num [tableC, tbl, t1, p, exactLevel]
      · apply Complex.ext <;> norm_num [tableC, tbl, t1, m, p, exactLevel]
    rw [h0, sub_self, norm_zero]; norm_num
  | succ k h1 ih =>
    have e := pow_succ 2 k
    obtain ⟨_, hn⟩ := okNext_spec _ _ (ok_step h1 (by omega))
    rw [length_tbl h1 (by omega)] at hn
    obtain ⟨k, rfl⟩ : ∃ j, k = j + 1 := ⟨k - 1, by omega⟩
    have even : ∀ i < 2 ^ (k + 1), ‖tableC (k + 2) (2 * i) - exactLevel (k + 2) (2 * i)‖ ≤ 5e-15 := by
      intro i hi
      obtain ⟨_, n2, n3, n4⟩ := hn i hi
      have ihi := ih (by omega) i hi
      rw [exactRoots_pow] at ihi
      have c3 : |(((tbl (k + 2)).getD (2 * i) 0).1 : ℝ) * ((tbl (k + 2)).getD (2 * i) 0).1 - (((tbl (k + 2)).getD (2 * i) 0).2 : ℝ) * ((tbl (k + 2)).getD (2 * i) 0).2 - (((tbl (k + 1)).getD i 0).1 : ℝ) * 10 ^ 17| ≤ 2 * 10 ^ 19 := by exact_mod_cast n3
      have c4 : |2 * (((tbl (k + 2)).getD (2 * i) 0).1 : ℝ) * ((tbl (k + 2)).getD (2 * i) 0).2 - (((tbl (k + 1)).getD i 0).2 : ℝ) * 10 ^ 17| ≤ 2 * 10 ^ 19 := by exact_mod_cast n4
      have c2 : (10 : ℝ) ^ 14 ≤ (((tbl (k + 2)).getD (2 * i) 0).1 : ℝ) := by exact_mod_cast n2
      refine step (v := tableC (k + 1) i) (e := exactLevel (k + 1) i) ?_ ihi (exactLevel_sq k i) ?_ ?_ ?_
      · rw [show (4e-15 : ℝ) = 2 * 2e-15 by norm_num]
        apply norm_le_parts
        · rw [Complex.sub_re, pow_two, Complex.mul_re]
          simp only [tableC]
          rw [abs_le] at c3 ⊢
          constructor <;> linarith [c3.1, c3.2]
        · rw [Complex.sub_im, pow_two, Complex.mul_im]
          simp only [tableC]
          rw [abs_le] at c4 ⊢
          constructor <;> linarith [c4.1, c4.2]
      · have := (exactLevel_spec (k + 1) (2 * i)).1
        rw [star_def, Complex.mul_conj, Complex.normSq_eq_norm_sq] at this
        have h : ‖exactLevel (k + 2) (2 * i)‖ ^ 2 = 1 := by exact_mod_cast this
        have hn := norm_nonneg (exactLevel (k + 2) (2 * i))
        nlinarith
      · rw [exactLevel_even]; exact principal_re (exactLevel_spec k i).1 (exactLevel_ne k i)
      · simp only [tableC]; linarith
    intro i hi
    rw [exactRoots_pow]
    rcases Nat.even_or_odd' i with ⟨j, rfl | rfl⟩
    · exact even j (by omega)
    · have hj : j < 2 ^ (k + 1) := by omega
      have : tableC (k + 2) (2 * j + 1) = -tableC (k + 2) (2 * j) := by
        apply Complex.ext <;> simp only [tableC, Complex.neg_re, Complex.neg_im] <;> rw [(hn j hj).1]
        · simp; ring
        · simp; ring
      rw [this, exactLevel_odd, ← exactLevel_even, neg_sub_neg, norm_sub_rev]
      exact even j hj

end Verif.FFT.Table
