import Verif.CRef.FprConv

/-! # Rounding: monotonicity, exactness, relative error -/

namespace Verif.CRef.Fpr

/-- Rounding with underflow to zero. -/
noncomputable def fl (r : ℝ) : ℝ := if |r| < (2 : ℝ) ^ (-1022 : ℤ) then 0 else rnd r

theorem rounded_fl (r : ℝ) (z : W) (h : Rounded r z) (hr : |r| < 2 ^ 1000) : Ok z ∧ val z = fl r := by
  unfold fl
  by_cases c : |r| < (2 : ℝ) ^ (-1022 : ℤ)
  · rw [if_pos c]; exact h.1 c
  · rw [if_neg c]
    refine h.2 (not_lt.1 c) (hr.trans ?_)
    have e1 : (2 : ℝ) ^ 1000 = 2 ^ 970 * 2 ^ 30 := by rw [← pow_add]
    have e2 : (2 : ℝ) ^ 1024 = 2 ^ 970 * 2 ^ 54 := by rw [← pow_add]
    have hu : (0 : ℝ) < 2 ^ 970 := by positivity
    rw [e1, e2]
    clear e1 e2 hr
    generalize (2 : ℝ) ^ 970 = u at *
    have := mul_pos hu (show (0 : ℝ) < 2 ^ 54 - 1 - 2 ^ 30 by norm_num)
    linarith

theorem rnd_zero : rnd 0 = 0 := by unfold rnd; rw [if_pos rfl]

theorem rnd_is53 (r : ℝ) : Is53 (rnd r) := by
  by_cases h : r = 0
  · rw [h, rnd_zero]; exact ⟨0, 0, by norm_num, by simp⟩
  · exact (rnd_nearest r h).1

theorem rnd_exact (v : ℝ) (h : Is53 v) : rnd v = v := by
  by_cases hv : v = 0
  · rw [hv, rnd_zero]
  · have := ((rnd_nearest v hv).2 v h).1
    rw [sub_self, abs_zero] at this
    have := abs_nonpos_iff.1 this
    linarith

theorem rnd_mono (a b : ℝ) (h : a ≤ b) : rnd a ≤ rnd b := by
  by_contra hn
  push Not at hn
  have near : ∀ r v, Is53 v → |r - rnd r| ≤ |r - v| := by
    intro r v hv
    by_cases hr : r = 0
    · rw [hr, rnd_zero]; simp
    · exact ((rnd_nearest r hr).2 v hv).1
  have h1 := near a (rnd b) (rnd_is53 b)
  have h2 := near b (rnd a) (rnd_is53 a)
  have hne : a ≠ b := fun e => by rw [e] at hn; exact lt_irrefl _ hn
  have hlt : a < b := lt_of_le_of_ne h hne
  generalize rnd a = x at *
  generalize rnd b = y at *
  have g1 : (x + y) / 2 ≤ a := by
    by_contra c
    push Not at c
    have e1 : |a - x| = x - a := by rw [abs_sub_comm, abs_of_nonneg (by linarith)]
    rw [e1] at h1
    rcases abs_cases (a - y) with ⟨e, _⟩ | ⟨e, _⟩ <;> rw [e] at h1 <;> linarith
  have g2 : b ≤ (x + y) / 2 := by
    by_contra c
    push Not at c
    have e1 : |b - y| = b - y := by rw [abs_of_nonneg (by linarith)]
    rw [e1] at h2
    rcases abs_cases (b - x) with ⟨e, _⟩ | ⟨e, _⟩ <;> rw [e] at h2 <;> linarith
  linarith

theorem rnd_err (r : ℝ) : |rnd r - r| ≤ |r| / 2 ^ 53 := by
  by_cases h : r = 0
  · rw [h, rnd_zero]; simp
  · unfold rnd
    rw [if_neg h]
    have hp := abs_pos.2 h
    have hl : (2 : ℝ) ^ (Int.log 2 |r|) ≤ |r| := by
      have := (Int.zpow_le_iff_le_log (b := 2) (by norm_num) (x := Int.log 2 |r|) hp).2 le_rfl
      exact_mod_cast this
    have e : (2 : ℝ) ^ (Int.log 2 |r|) = (2 : ℝ) ^ (Int.log 2 |r| - 52) * 2 ^ 52 := by
      rw [← zpow_natCast, ← zpow_add₀ (by norm_num)]; congr 1; push_cast; ring
    rw [e] at hl
    have hu : (0 : ℝ) < (2 : ℝ) ^ (Int.log 2 |r| - 52) := by positivity
    generalize (2 : ℝ) ^ (Int.log 2 |r| - 52) = u at *
    have hd := (rne_dist (r / u)).1
    have : (rne (r / u) : ℝ) * u - r = -((r / u - rne (r / u)) * u) := by field_simp; ring
    rw [this, abs_neg, abs_mul, abs_of_pos hu]
    have := mul_le_mul_of_nonneg_right hd hu.le
    rw [le_div_iff₀ (by norm_num)]
    nlinarith

theorem fl_zero : fl 0 = 0 := by unfold fl; rw [if_pos (by rw [abs_zero]; positivity)]

theorem fl_exact (v : ℝ) (h : Is53 v) (h2 : v = 0 ∨ (2 : ℝ) ^ (-1022 : ℤ) ≤ |v|) : fl v = v := by
  rcases h2 with rfl | h2
  · exact fl_zero
  · unfold fl; rw [if_neg (not_lt.2 h2), rnd_exact v h]

theorem rnd_nonneg (r : ℝ) (h : 0 ≤ r) : 0 ≤ rnd r := by have := rnd_mono 0 r h; rwa [rnd_zero] at this

theorem fl_nonneg (r : ℝ) (h : 0 ≤ r) : 0 ≤ fl r := by
  unfold fl; split
  · exact le_rfl
  · exact rnd_nonneg r h

theorem fl_mono (a b : ℝ) (ha : 0 ≤ a) (h : a ≤ b) : fl a ≤ fl b := by
  unfold fl
  rw [abs_of_nonneg ha, abs_of_nonneg (ha.trans h)]
  by_cases c : a < (2 : ℝ) ^ (-1022 : ℤ)
  · rw [if_pos c]
    split
    · exact le_rfl
    · exact rnd_nonneg b (ha.trans h)
  · rw [if_neg c, if_neg (by linarith)]
    exact rnd_mono a b h

/-- A number of the format is not passed by rounding. -/
theorem fl_le (a v : ℝ) (ha : 0 ≤ a) (h : a ≤ v) (hv : Is53 v) : fl a ≤ v := by
  unfold fl; split
  · exact ha.trans h
  · rw [← rnd_exact v hv]; exact rnd_mono a v h

theorem le_fl (v b : ℝ) (hv : Is53 v) (h2 : v = 0 ∨ (2 : ℝ) ^ (-1022 : ℤ) ≤ v) (h : v ≤ b) : v ≤ fl b := by
  rcases h2 with rfl | h2
  · exact fl_nonneg b h
  · have hp : (0 : ℝ) < (2 : ℝ) ^ (-1022 : ℤ) := by positivity
    have := fl_mono v b (hp.le.trans h2) h
    rwa [fl_exact v hv (.inr (by rwa [abs_of_nonneg (hp.le.trans h2)]))] at this

theorem fl_neg (r : ℝ) : fl (-r) = - fl r := by
  unfold fl; rw [abs_neg]; split
  · simp
  · exact rnd_neg r

theorem fl_err (r : ℝ) : |fl r - r| ≤ |r| / 2 ^ 53 + (2 : ℝ) ^ (-1022 : ℤ) := by
  have hp : (0 : ℝ) < (2 : ℝ) ^ (-1022 : ℤ) := by positivity
  unfold fl
  split
  · rename_i h
    rw [zero_sub, abs_neg]
    have : 0 ≤ |r| / 2 ^ 53 := by positivity
    linarith
  · have := rnd_err r
    linarith

theorem is53_int (n : ℤ) (h : |n| < 2 ^ 53) : Is53 (n : ℝ) := ⟨n, 0, h, by simp⟩

theorem is53_val (x : W) : Is53 (val x) := by rw [← rnd_val x]; exact rnd_is53 _

theorem is53_scale (v : ℝ) (h : Is53 v) (k : ℤ) : Is53 (v * (2 : ℝ) ^ k) := by
  obtain ⟨a, j, h1, h2⟩ := h
  exact ⟨a, j + k, h1, by rw [h2, mul_assoc, ← zpow_add₀ (by norm_num)]⟩

/-- The number of the format below `p · 2^t`. -/
theorem is53_pred (v : ℝ) (h : Is53 v) (p t : ℤ) (hp : 2 ^ 52 < p) (hv : v < p * (2 : ℝ) ^ t) : v ≤ (p - 1) * (2 : ℝ) ^ t := by
  obtain ⟨a, j, h1, h2⟩ := h
  have hu : (0 : ℝ) < (2 : ℝ) ^ t := by positivity
  rcases le_or_gt t j with c | c
  · obtain ⟨b, hb⟩ := int_mul_zpow_of_ge a j t c
    rw [h2, hb] at hv ⊢
    have : (b : ℝ) < p := lt_of_mul_lt_mul_right hv hu.le
    have : b < p := by exact_mod_cast this
    have : (b : ℝ) ≤ p - 1 := by
      have : b ≤ p - 1 := by omega
      exact_mod_cast this
    exact mul_le_mul_of_nonneg_right this hu.le
  · have hj : (2 : ℝ) ^ j * 2 ≤ (2 : ℝ) ^ t := by
      rw [show (2 : ℝ) ^ j * 2 = (2 : ℝ) ^ (j + 1) by rw [zpow_add₀ (by norm_num), zpow_one]]
      exact zpow_le_zpow_right₀ (by norm_num) (by omega)
    have hj0 : (0 : ℝ) < (2 : ℝ) ^ j := by positivity
    rw [h2]
    have ha : (a : ℝ) ≤ 2 ^ 53 := by
      have : a ≤ 2 ^ 53 := (le_abs_self a).trans h1.le
      exact_mod_cast this
    have hp' : (2 : ℝ) ^ 52 ≤ p - 1 := by
      have : (2 : ℤ) ^ 52 ≤ p - 1 := by omega
      exact_mod_cast this
    have m1 := mul_le_mul_of_nonneg_right ha hj0.le
    have m2 := mul_le_mul_of_nonneg_right hp' hu.le
    have m3 := mul_le_mul_of_nonneg_left hj (show (0 : ℝ) ≤ 2 ^ 52 by positivity)
    linarith

theorem val_zero_or (x : W) : val x = 0 ∨ (2 : ℝ) ^ (-1022 : ℤ) ≤ |val x| := by
  by_cases h : expo x = 0
  · exact .inl (val_eq_zero x h)
  · right
    refine le_trans ?_ (val_ge x h)
    exact zpow_le_zpow_right₀ (by norm_num) (by omega)

end Verif.CRef.Fpr
