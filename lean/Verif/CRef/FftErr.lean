import Verif.CRef.Fft
import Verif.CRef.FprFl
import Verif.CRef.FprMul
import Verif.CRef.FprAdd
import Mathlib.Analysis.Complex.Norm

/-! # Rounding errors of complex operations -/

namespace Verif.CRef.Fft

open Verif.CRef.Fpr

/-- The complex number a pair of words stands for. -/
noncomputable def cv (z : C) : ℂ := ⟨val z.1, val z.2⟩

/-- Both words are numbers. -/
def Good (z : C) : Prop := Ok z.1 ∧ Ok z.2

/-- Half a unit in the last place, and the underflow threshold. -/
noncomputable def uu : ℝ := 1 / 2 ^ 53
noncomputable def eta : ℝ := (2 : ℝ) ^ (-1022 : ℤ)

theorem uu_pos : 0 < uu := by unfold uu; positivity
theorem eta_pos : 0 < eta := by unfold eta; positivity

theorem fl_close (r : ℝ) : |fl r - r| ≤ uu * |r| + eta := by
  have := fl_err r; unfold uu eta; rw [one_div, inv_mul_eq_div]; exact this

/-- Bounds on the magnitude of intermediate values. -/
noncomputable def big : ℝ := 2 ^ 900
noncomputable def huge : ℝ := 2 ^ 999

theorem big_huge : big * 4 ≤ huge := by
  unfold big huge
  rw [show (2 : ℝ) ^ 999 = 2 ^ 900 * 2 ^ 99 by rw [← pow_add]]
  exact mul_le_mul_of_nonneg_left (by norm_num) (by positivity)

theorem one_le_big : 1 ≤ big := one_le_pow₀ (by norm_num)

theorem rounded_close (r : ℝ) (z : W) (h : Rounded r z) (hr : |r| ≤ huge) : Ok z ∧ |val z - r| ≤ uu * |r| + eta := by
  have := rounded_fl r z h (hr.trans_lt (by unfold huge; gcongr <;> norm_num))
  rw [this.2]; exact ⟨this.1, fl_close r⟩

theorem norm_le_parts (z : ℂ) : ‖z‖ ≤ |z.re| + |z.im| := Complex.norm_le_abs_re_add_abs_im z

theorem re_le (z : C) : |val z.1| ≤ ‖cv z‖ := Complex.abs_re_le_norm (cv z)
theorem im_le (z : C) : |val z.2| ≤ ‖cv z‖ := Complex.abs_im_le_norm (cv z)

theorem eta_small : eta ≤ uu := by
  unfold eta uu
  rw [one_div, ← zpow_natCast, ← zpow_neg]
  exact zpow_le_zpow_right₀ (by norm_num) (by norm_num)

theorem uu_small : uu ≤ 1 / 2 ^ 53 := le_refl _

theorem lin_close (a b c d : ℝ) (x y : W) (h1 : Ok x ∧ |val x - a| ≤ uu * |a| + eta) (h2 : Ok y ∧ |val y - b| ≤ uu * |b| + eta) (e1 : a = c) (e2 : b = d) (r : ℂ) (hr : r = ⟨c, d⟩) :
    Good (x, y) ∧ ‖cv (x, y) - r‖ ≤ uu * (2 * ‖r‖) + 2 * eta := by
  subst e1 e2 hr
  refine ⟨⟨h1.1, h2.1⟩, (norm_le_parts _).trans ?_⟩
  have k1 := Complex.abs_re_le_norm (⟨a, b⟩ : ℂ)
  have k2 := Complex.abs_im_le_norm (⟨a, b⟩ : ℂ)
  have g1 : |(cv (x, y) - (⟨a, b⟩ : ℂ)).re| = |val x - a| := rfl
  have g2 : |(cv (x, y) - (⟨a, b⟩ : ℂ)).im| = |val y - b| := rfl
  rw [g1, g2]
  have := h1.2; have := h2.2
  have m1 := mul_le_mul_of_nonneg_left k1 uu_pos.le
  have m2 := mul_le_mul_of_nonneg_left k2 uu_pos.le
  simp only at m1 m2
  linarith

theorem cAdd_close (x y : C) (hx : Good x) (hy : Good y) (bx : ‖cv x‖ ≤ big) (bY : ‖cv y‖ ≤ big) :
    Good (cAdd x y) ∧ ‖cv (cAdd x y) - (cv x + cv y)‖ ≤ uu * (2 * ‖cv x + cv y‖) + 2 * eta := by
  have B := big_huge
  have p1 := one_le_big
  refine lin_close _ _ _ _ _ _ (rounded_close _ _ (C99_add _ _ hx.1 hy.1) ?_) (rounded_close _ _ (C99_add _ _ hx.2 hy.2) ?_) rfl rfl _ rfl
  · exact (abs_add_le _ _).trans (by linarith [re_le x, re_le y])
  · exact (abs_add_le _ _).trans (by linarith [im_le x, im_le y])

theorem cSub_close (x y : C) (hx : Good x) (hy : Good y) (bx : ‖cv x‖ ≤ big) (bY : ‖cv y‖ ≤ big) :
    Good (cSub x y) ∧ ‖cv (cSub x y) - (cv x - cv y)‖ ≤ uu * (2 * ‖cv x - cv y‖) + 2 * eta := by
  have B := big_huge
  have p1 := one_le_big
  refine lin_close _ _ _ _ _ _ (rounded_close _ _ (C99_sub _ _ hx.1 hy.1) ?_) (rounded_close _ _ (C99_sub _ _ hx.2 hy.2) ?_) rfl rfl _ rfl
  · exact (abs_sub _ _).trans (by linarith [re_le x, re_le y])
  · exact (abs_sub _ _).trans (by linarith [im_le x, im_le y])

/-- One component of a product. -/
theorem comp_close (a b c d : ℝ) (P : ℝ) (hP : |a * b| + |c * d| ≤ P) (hP2 : P ≤ big) (x y : W) (hx : Rounded (a * b) x) (hy : Rounded (c * d) y) (z : W) (s : ℝ) (hs : s = 1 ∨ s = -1)
    (hz : Ok x → Ok y → Rounded (val x + s * val y) z) : Ok z ∧ |val z - (a * b + s * (c * d))| ≤ uu * (2 * P + 2 * uu * P) + 4 * eta := by
  have B := big_huge
  have p1 := one_le_big
  have u0 := uu_pos; have e0 := eta_pos
  have u1 : uu ≤ 1 / 4 := by unfold uu; norm_num
  have e1 : eta ≤ 1 / 4 := eta_small.trans u1
  obtain ⟨ox, cx⟩ := rounded_close _ _ hx (by linarith [abs_nonneg (a * b), abs_nonneg (c * d)])
  obtain ⟨oy, cy⟩ := rounded_close _ _ hy (by linarith [abs_nonneg (a * b), abs_nonneg (c * d)])
  have hsa : |s| = 1 := by rcases hs with rfl | rfl <;> simp
  have P0 : 0 ≤ P := (add_nonneg (abs_nonneg _) (abs_nonneg _)).trans hP
  generalize a * b = A at *
  generalize c * d = D at *
  have d1 : |val x + s * val y - (A + s * D)| ≤ uu * P + 2 * eta := by
    have : val x + s * val y - (A + s * D) = (val x - A) + s * (val y - D) := by ring
    rw [this]
    refine (abs_add_le _ _).trans ?_
    rw [abs_mul, hsa, one_mul]
    have := mul_le_mul_of_nonneg_left hP u0.le
    linarith
  have s1 : |A + s * D| ≤ P := by
    refine (abs_add_le _ _).trans ?_; rw [abs_mul, hsa, one_mul]; exact hP
  have s2 : |val x + s * val y| ≤ P + (uu * P + 2 * eta) := by
    have := abs_add_le (val x + s * val y - (A + s * D)) (A + s * D)
    rw [sub_add_cancel] at this; linarith
  have s3 : uu * P ≤ 1 / 4 * P := mul_le_mul_of_nonneg_right u1 P0
  obtain ⟨oz, cz⟩ := rounded_close _ _ (hz ox oy) (by linarith)
  refine ⟨oz, ?_⟩
  have t := abs_add_le (val z - (val x + s * val y)) (val x + s * val y - (A + s * D))
  rw [sub_add_sub_cancel] at t
  have m := mul_le_mul_of_nonneg_left s2 u0.le
  have m2 : uu * eta ≤ 1 / 4 * eta := mul_le_mul_of_nonneg_right u1 e0.le
  have m3 := mul_nonneg u0.le (mul_nonneg u0.le P0)
  linarith [sub_nonneg.2 t]

theorem cs_le (a b c d : ℝ) : |a * c| + |b * d| ≤ ‖(⟨a, b⟩ : ℂ)‖ * ‖(⟨c, d⟩ : ℂ)‖ := by
  rw [Complex.norm_def, Complex.norm_def, ← Real.sqrt_mul (Complex.normSq_nonneg _)]
  apply Real.le_sqrt_of_sq_le
  rw [Complex.normSq_mk, Complex.normSq_mk, abs_mul, abs_mul]
  have h1 := sq_abs a; have h2 := sq_abs b; have h3 := sq_abs c; have h4 := sq_abs d
  have e : (a * a + b * b) * (c * c + d * d) = (|a| ^ 2 + |b| ^ 2) * (|c| ^ 2 + |d| ^ 2) := by rw [h1, h2, h3, h4]; ring
  rw [e]
  nlinarith [sq_nonneg (|a| * |d| - |b| * |c|)]

theorem cMul_close (x y : C) (h : ‖cv x‖ * ‖cv y‖ ≤ big) : Good (cMul x y) ∧ ‖cv (cMul x y) - cv x * cv y‖ ≤ uu * (5 * (‖cv x‖ * ‖cv y‖)) + 8 * eta := by
  have k1 := cs_le (val x.1) (val x.2) (val y.1) (val y.2)
  have k2 := cs_le (val x.1) (val x.2) (val y.2) (val y.1)
  have e2 : ‖(⟨val y.2, val y.1⟩ : ℂ)‖ = ‖cv y‖ := by
    rw [Complex.norm_def, Complex.norm_def]; unfold cv; rw [Complex.normSq_mk, Complex.normSq_mk, add_comm]
  rw [e2] at k2
  obtain ⟨o1, c1⟩ := comp_close _ _ _ _ _ k1 h _ _ (C99_mul x.1 y.1) (C99_mul x.2 y.2) (cMul x y).1 (-1) (.inr rfl)
    (fun a b => by have := C99_sub _ _ a b; rw [show val (mul x.1 y.1) + -1 * val (mul x.2 y.2) = val (mul x.1 y.1) - val (mul x.2 y.2) by ring]; exact this)
  obtain ⟨o2, c2⟩ := comp_close _ _ _ _ _ k2 h _ _ (C99_mul x.1 y.2) (C99_mul x.2 y.1) (cMul x y).2 1 (.inl rfl)
    (fun a b => by have := C99_add _ _ a b; rw [one_mul]; exact this)
  refine ⟨⟨o1, o2⟩, (norm_le_parts _).trans ?_⟩
  have g1 : (cv (cMul x y) - cv x * cv y).re = val (cMul x y).1 - (val x.1 * val y.1 + -1 * (val x.2 * val y.2)) := by
    rw [Complex.sub_re, Complex.mul_re]; unfold cv; ring
  have g2 : (cv (cMul x y) - cv x * cv y).im = val (cMul x y).2 - (val x.1 * val y.2 + 1 * (val x.2 * val y.1)) := by
    rw [Complex.sub_im, Complex.mul_im]; unfold cv; ring
  rw [g1, g2]
  have P0 : 0 ≤ ‖cv x‖ * ‖cv y‖ := by positivity
  change _ ≤ uu * (2 * (‖cv x‖ * ‖cv y‖) + 2 * uu * (‖cv x‖ * ‖cv y‖)) + 4 * eta at c1
  change _ ≤ uu * (2 * (‖cv x‖ * ‖cv y‖) + 2 * uu * (‖cv x‖ * ‖cv y‖)) + 4 * eta at c2
  generalize ‖cv x‖ * ‖cv y‖ = P at *
  have u1 : uu ≤ 1 / 4 := by unfold uu; norm_num
  have m : uu * (uu * P) ≤ uu * (1 / 4 * P) := mul_le_mul_of_nonneg_left (mul_le_mul_of_nonneg_right u1 P0) uu_pos.le
  nlinarith

end Verif.CRef.Fft
