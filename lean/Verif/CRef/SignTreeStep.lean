import Verif.CRef.SignTreeSlot

/-! # One step of the sampling tree (`CentreStep`) for any accurate way of splitting and merging -/

namespace Verif.CRef.SignTree

open Verif.CRef.Fpr Verif.CRef.Fft Verif.CRef.Orth Verif.CRef.SignDyn

/-- The targets of the two halves in one pair of slots. -/
theorem samp_first_by (t0 t1 z1 D0 D1 w : C) (s : ℂ) (hs : ‖s‖ = 1) (hw : ‖cv w - (starRingEnd ℂ) s‖ ≤ 4 * uu) (wz1 : Weak z1)
    (T : ℝ) (T2 : T ≤ 2 ^ 30) (bt0 : ‖cv t0‖ ≤ T) (bt1 : ‖cv t1‖ ≤ T) (h0 : Weak D0) (h1 : Weak D1) (a0 : 16 ≤ val D0.1) (a1 : 16 ≤ val D1.1) (b0 : val D0.1 ≤ 2 ^ 24) (b1 : val D1.1 ≤ 2 ^ 24)
    (k0 : |val D0.2| ≤ 1 / 2) (k1 : |val D1.2| ≤ 1 / 2) (A B L x0 x1 tb : C) (d En : ℝ) (hA : A = hv (cAdd D0 D1)) (hB : B = hv (cMul (cSub D0 D1) w)) (hL : L = ((cDiv B A).1, neg (cDiv B A).2))
    (wx0 : Weak x0) (c0' : ‖cv x0 - (cv t0 + cv t1) / 2‖ ≤ 1 / 2 ^ 18) (wx1 : Weak x1) (c1' : ‖cv x1 - (cv t0 - cv t1) / 2 * (starRingEnd ℂ) s‖ ≤ 1 / 2 ^ 18) (htb : tb = cAdd x0 (cMul L (cSub x1 z1)))
    (hd : 4 ≤ d) (hEn2 : En ≤ 2 ^ 45) (e1 : d * ‖cv x1 - cv z1‖ ^ 2 ≤ En) :
    Weak x1 ∧ ‖cv x1‖ ≤ T + 1 ∧ Weak tb ∧ ‖cv tb‖ ≤ T + 2 ^ 24 ∧ ‖cv z1‖ ≤ T + 2 ^ 23 ∧ ‖cv x1 - (cv t0 - cv t1) / 2 * (starRingEnd ℂ) s‖ ≤ 1 / 2 ^ 18 ∧
    ∃ l : ℂ, ‖1 - l‖ ≤ 33 / 32 * (2 * val D1.1 / (val D0.1 + val D1.1)) ∧ ‖1 + l‖ ≤ 33 / 32 * (2 * val D0.1 / (val D0.1 + val D1.1)) ∧
      ‖cv tb - ((cv t0 + cv t1) / 2 + l * s * (cv x1 - cv z1))‖ ≤ 1 / 2 ^ 14 := by
  have u0 := uu_pos
  have un := uu_num
  have e0 := eta_pos
  have et : eta ≤ uu := eta_tiny.trans (by have := mul_le_mul_of_nonneg_left (show (1 : ℝ) / 2 ^ 100 ≤ 1 by norm_num) u0.le; linarith)
  have T0 : 0 ≤ T := (norm_nonneg _).trans bt0
  obtain ⟨l, cL, nl, l1, l2⟩ := mult_close D0 D1 w s hs hw h0 h1 a0 a1 (b0.trans (by norm_num)) (b1.trans (by norm_num)) k0 k1 A B L hA hB hL
  have st : ‖cv t0 + cv t1‖ ≤ 2 * T := (norm_add_le _ _).trans (by linarith)
  have dt : ‖cv t0 - cv t1‖ ≤ 2 * T := (norm_sub_le _ _).trans (by linarith)
  have ns : ‖(starRingEnd ℂ) s‖ = 1 := by rw [RCLike.norm_conj, hs]
  have nx0 : ‖cv x0‖ ≤ T + 1 := by
    have := norm_add_le (cv x0 - (cv t0 + cv t1) / 2) ((cv t0 + cv t1) / 2)
    rw [sub_add_cancel, norm_div] at this
    norm_num at *; linarith
  have nx1 : ‖cv x1‖ ≤ T + 1 := by
    have := norm_add_le (cv x1 - (cv t0 - cv t1) / 2 * (starRingEnd ℂ) s) ((cv t0 - cv t1) / 2 * (starRingEnd ℂ) s)
    rw [sub_add_cancel, norm_mul, ns, norm_div] at this
    norm_num at *; linarith
  -- the error of the second target
  have E1 : ‖cv x1 - cv z1‖ ≤ 2 ^ 22 := by
    rw [← abs_of_nonneg (norm_nonneg (cv x1 - cv z1)), ← abs_of_nonneg (show (0 : ℝ) ≤ 2 ^ 22 by positivity), ← sq_le_sq]
    have := mul_le_mul_of_nonneg_right hd (sq_nonneg ‖cv x1 - cv z1‖)
    norm_num at *; linarith
  have nz1 : ‖cv z1‖ ≤ T + 2 ^ 23 := by
    have := norm_sub_le (cv x1) (cv x1 - cv z1)
    rw [sub_sub_cancel] at this
    norm_num at E1 ⊢; linarith
  obtain ⟨gs, cs⟩ := wSub_close x1 z1 wx1 wz1 (nx1.trans (by norm_num at *; linarith)) (nz1.trans (by norm_num at *; linarith))
  generalize cSub x1 z1 = x at *
  obtain ⟨ε, hε⟩ : ∃ ε, cv x1 - cv z1 = ε := ⟨_, rfl⟩
  rw [hε] at cs E1 e1
  have cs' : ‖cv x - ε‖ ≤ 1 / 2 ^ 18 := by
    have := mul_le_mul_of_nonneg_left E1 u0.le
    rw [un] at *; norm_num at *; linarith
  have nx : ‖cv x‖ ≤ 2 ^ 22 + 1 := by
    have := norm_add_le (cv x - ε) ε
    rw [sub_add_cancel] at this
    norm_num at *; linarith
  have nL : ‖cv L‖ ≤ 2 + 1 / 2 ^ 10 := by
    have := norm_add_le (cv L - l * s) (l * s)
    rw [sub_add_cancel, norm_mul, hs, mul_one] at this
    rw [un] at *; norm_num at *; linarith
  have nLx : ‖cv L‖ * ‖cv x‖ ≤ (2 + 1 / 2 ^ 10) * (2 ^ 22 + 1) := mul_le_mul nL nx (norm_nonneg _) (by norm_num)
  obtain ⟨gy, cy⟩ := cMul_close L x (big_le _ (nLx.trans (by norm_num)))
  generalize cMul L x = y at *
  have cy' : ‖cv y - l * s * ε‖ ≤ 1 / 2 ^ 16 := by
    have e : cv y - l * s * ε = (cv y - cv L * cv x) + ((cv L - l * s) * cv x + l * s * (cv x - ε)) := by ring
    rw [e]
    refine (norm_add_le _ _).trans (add_le_add_right (norm_add_le _ _) _ |>.trans ?_)
    rw [norm_mul, norm_mul, norm_mul, hs, mul_one]
    have m1 := mul_le_mul cL nx (norm_nonneg _) (by positivity)
    have m2 := mul_le_mul nl cs' (norm_nonneg _) (by norm_num)
    have m3 := mul_le_mul_of_nonneg_left nLx u0.le
    rw [un] at *; norm_num at *; linarith
  have nle : ‖l * s * ε‖ ≤ 2 * 2 ^ 22 := by
    rw [norm_mul, norm_mul, hs, mul_one]; exact mul_le_mul nl E1 (norm_nonneg _) (by norm_num)
  have ny : ‖cv y‖ ≤ 2 ^ 23 + 1 := by
    have := norm_add_le (cv y - l * s * ε) (l * s * ε)
    rw [sub_add_cancel] at this
    norm_num at *; linarith
  obtain ⟨gt, ct⟩ := wAdd_close x0 y wx0 gy.weak (nx0.trans (by norm_num at *; linarith)) (ny.trans (by norm_num))
  rw [← htb] at gt ct
  have nxy : ‖cv x0 + cv y‖ ≤ T + 1 + (2 ^ 23 + 1) := (norm_add_le _ _).trans (add_le_add nx0 ny)
  have ct' : ‖cv tb - (cv x0 + cv y)‖ ≤ 1 / 2 ^ 18 := by
    have := mul_le_mul_of_nonneg_left nxy u0.le
    rw [un] at *; norm_num at *; linarith
  have nt : ‖cv tb‖ ≤ T + 2 ^ 24 := by
    have := norm_add_le (cv tb - (cv x0 + cv y)) (cv x0 + cv y)
    rw [sub_add_cancel] at this
    norm_num at *; linarith
  refine ⟨wx1, nx1, gt.weak, nt, nz1, c1', l, l1, l2, ?_⟩
  rw [hε]
  have e : cv tb - ((cv t0 + cv t1) / 2 + l * s * ε) = (cv tb - (cv x0 + cv y)) + ((cv x0 - (cv t0 + cv t1) / 2) + (cv y - l * s * ε)) := by ring
  rw [e]
  refine (norm_add_le _ _).trans ((add_le_add ct' ((norm_add_le _ _).trans (add_le_add c0' cy'))).trans (by norm_num))

/-- The drawn values of the two slots. -/
theorem samp_second_by (z0 z1 Z0 Z1 : C) (s t0 t1 x1 tb l : ℂ) (hs : ‖s‖ = 1) (T : ℝ) (T2 : T ≤ 2 ^ 30)
    (ntb : ‖tb‖ ≤ T + 2 ^ 24) (nz1 : ‖cv z1‖ ≤ T + 2 ^ 23) (cx1 : ‖x1 - (t0 - t1) / 2 * (starRingEnd ℂ) s‖ ≤ 1 / 2 ^ 18) (ctb : ‖tb - ((t0 + t1) / 2 + l * s * (x1 - cv z1))‖ ≤ 1 / 2 ^ 14)
    (A u v d En : ℝ) (a0 : 16 ≤ u) (a1 : 16 ≤ v) (b0 : u ≤ 2 ^ 24) (b1 : v ≤ 2 ^ 24) (l1 : ‖1 - l‖ ≤ 33 / 32 * (2 * v / (u + v))) (l2 : ‖1 + l‖ ≤ 33 / 32 * (2 * u / (u + v)))
    (hA1 : 999 / 1000 * ((u + v) / 2) ≤ A) (hd : 999 / 1000 * (u * v / ((u + v) / 2)) ≤ d) (hEn : 10 ^ 6 ≤ En) (hEn2 : En ≤ 2 ^ 45)
    (e1 : d * ‖x1 - cv z1‖ ^ 2 ≤ En) (e2 : A * ‖tb - cv z0‖ ^ 2 ≤ En)
    (H : ‖cv z0‖ ≤ 2 ^ 31 → ‖cv z1‖ ≤ 2 ^ 31 → Weak Z0 ∧ ‖cv Z0 - (cv z0 + s * cv z1)‖ ≤ 1 / 2 ^ 15 ∧ Weak Z1 ∧ ‖cv Z1 - (cv z0 - s * cv z1)‖ ≤ 1 / 2 ^ 15) :
    Weak Z0 ∧ Weak Z1 ∧ u * ‖t0 - cv Z0‖ ^ 2 ≤ 5 * En ∧ v * ‖t1 - cv Z1‖ ^ 2 ≤ 5 * En := by
  have u0 := uu_pos
  have un := uu_num
  have e0 := eta_pos
  have et : eta ≤ uu := eta_tiny.trans (by have := mul_le_mul_of_nonneg_left (show (1 : ℝ) / 2 ^ 100 ≤ 1 by norm_num) u0.le; linarith)
  obtain ⟨a, ha⟩ : ∃ a, tb - cv z0 = a := ⟨_, rfl⟩
  obtain ⟨ε, hε⟩ : ∃ ε, x1 - cv z1 = ε := ⟨_, rfl⟩
  rw [ha] at e2
  rw [hε] at e1 ctb
  have E2 : ‖a‖ ≤ 2 ^ 23 := by
    rw [← abs_of_nonneg (norm_nonneg a), ← abs_of_nonneg (show (0 : ℝ) ≤ 2 ^ 23 by positivity), ← sq_le_sq]
    have := mul_le_mul_of_nonneg_right (show 4 ≤ A by linarith) (sq_nonneg ‖a‖)
    norm_num at hEn2 ⊢; linarith
  have nz0 : ‖cv z0‖ ≤ 2 ^ 31 := by
    have := norm_sub_le tb a
    rw [← ha, sub_sub_cancel, ha] at this
    norm_num at ntb T2 E2 ⊢; linarith
  have nz1' : ‖cv z1‖ ≤ 2 ^ 31 := by norm_num at nz1 T2 ⊢; linarith
  obtain ⟨ga, ca', gb, cb'⟩ := H nz0 nz1'
  have ss : (starRingEnd ℂ) s * s = 1 := by rw [mul_comm, Complex.mul_conj, Complex.normSq_eq_norm_sq, hs]; simp
  obtain ⟨E1, hE1⟩ : ∃ E, tb - ((t0 + t1) / 2 + l * s * ε) = E := ⟨_, rfl⟩
  obtain ⟨E4, hE4⟩ : ∃ E, cv Z0 - (cv z0 + s * cv z1) = E := ⟨_, rfl⟩
  obtain ⟨E5, hE5⟩ : ∃ E, cv Z1 - (cv z0 - s * cv z1) = E := ⟨_, rfl⟩
  obtain ⟨F2, hF2⟩ : ∃ E, x1 - (t0 - t1) / 2 * (starRingEnd ℂ) s = E := ⟨_, rfl⟩
  have sx : s * x1 = (t0 - t1) / 2 + s * F2 := by
    rw [← hF2, mul_sub s, show s * ((t0 - t1) / 2 * (starRingEnd ℂ) s) = (t0 - t1) / 2 * ((starRingEnd ℂ) s * s) by ring, ss]; ring
  have f0 : t0 - cv Z0 = a + (1 - l) * s * ε - E1 - s * F2 - E4 := by
    have : s * F2 = s * x1 - (t0 - t1) / 2 := by rw [sx]; ring
    rw [this, ← hE1, ← hE4, ← ha, ← hε]; ring
  have f1 : t1 - cv Z1 = a - (1 + l) * s * ε - E1 + s * F2 - E5 := by
    have : s * F2 = s * x1 - (t0 - t1) / 2 := by rw [sx]; ring
    rw [this, ← hE1, ← hE5, ← ha, ← hε]; ring
  rw [hE1] at ctb
  rw [hE4] at ca'
  rw [hE5] at cb'
  rw [hF2] at cx1
  have nsF : ‖s * F2‖ ≤ 1 / 2 ^ 18 := by rw [norm_mul, hs, one_mul]; exact cx1
  have r0 : ‖t0 - cv Z0‖ ≤ ‖a‖ + 33 / 32 * (2 * v / (u + v)) * ‖ε‖ + 1 / 2 ^ 10 := by
    rw [f0]
    have k7 : ‖(1 - l) * s * ε‖ ≤ 33 / 32 * (2 * v / (u + v)) * ‖ε‖ := by
      rw [norm_mul, norm_mul, hs, mul_one]; exact mul_le_mul_of_nonneg_right l1 (norm_nonneg _)
    have k : ∀ p q e f i : ℂ, ‖p + q - e - f - i‖ ≤ ‖p‖ + ‖q‖ + ‖e‖ + ‖f‖ + ‖i‖ := fun p q e f i => by
      linarith [norm_sub_le (p + q - e - f) i, norm_sub_le (p + q - e) f, norm_sub_le (p + q) e, norm_add_le p q]
    have := k a ((1 - l) * s * ε) E1 (s * F2) E4
    generalize 33 / 32 * (2 * v / (u + v)) * ‖ε‖ = κ at *
    have num : (1 : ℝ) / 2 ^ 14 + 1 / 2 ^ 18 + 1 / 2 ^ 15 ≤ 1 / 2 ^ 10 := by norm_num
    refine this.trans ((add_le_add (add_le_add (add_le_add (add_le_add_right k7 _) ctb) nsF) ca').trans ?_)
    rw [add_assoc, add_assoc]
    exact add_le_add_right (by rw [← add_assoc]; exact num) _
  have r1 : ‖t1 - cv Z1‖ ≤ ‖a‖ + 33 / 32 * (2 * u / (u + v)) * ‖ε‖ + 1 / 2 ^ 10 := by
    rw [f1]
    have k7 : ‖(1 + l) * s * ε‖ ≤ 33 / 32 * (2 * u / (u + v)) * ‖ε‖ := by
      rw [norm_mul, norm_mul, hs, mul_one]; exact mul_le_mul_of_nonneg_right l2 (norm_nonneg _)
    have k : ∀ p q e f i : ℂ, ‖p - q - e + f - i‖ ≤ ‖p‖ + ‖q‖ + ‖e‖ + ‖f‖ + ‖i‖ := fun p q e f i => by
      linarith [norm_sub_le (p - q - e + f) i, norm_add_le (p - q - e) f, norm_sub_le (p - q) e, norm_sub_le p q]
    have := k a ((1 + l) * s * ε) E1 (s * F2) E5
    generalize 33 / 32 * (2 * u / (u + v)) * ‖ε‖ = κ at *
    have num : (1 : ℝ) / 2 ^ 14 + 1 / 2 ^ 18 + 1 / 2 ^ 15 ≤ 1 / 2 ^ 10 := by norm_num
    refine this.trans ((add_le_add (add_le_add (add_le_add (add_le_add_right k7 _) ctb) nsF) cb').trans ?_)
    rw [add_assoc, add_assoc]
    exact add_le_add_right (by rw [← add_assoc]; exact num) _
  refine ⟨ga, gb, ?_, ?_⟩
  · exact energy u v A d _ _ _ En (by linarith) (by linarith) b0 (norm_nonneg _) (norm_nonneg _) (norm_nonneg _) hA1 hd hEn e2 e1 r0
  · refine energy v u A d _ _ _ En (by linarith) (by linarith) b1 (norm_nonneg _) (norm_nonneg _) (norm_nonneg _) ?_ ?_ hEn e2 e1 ?_
    · rw [add_comm]; exact hA1
    · rw [add_comm, mul_comm v]; exact hd
    · rw [add_comm v]; exact r1

end Verif.CRef.SignTree
