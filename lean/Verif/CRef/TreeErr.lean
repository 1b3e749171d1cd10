import Verif.CRef.FprAddX
import Verif.CRef.OrthSlot
import Verif.CRef.FftInv

/-! # Rounding errors in the tree of `ffSampling_fft_dyntree`: halving, quotients and the LDL decomposition of one slot -/

namespace Verif.CRef.Fft

open Verif.CRef.Fpr Verif.CRef.Orth

/-- No exponent field 2047. -/
def Weak (z : C) : Prop := expo z.1 ≠ 2047 ∧ expo z.2 ≠ 2047

theorem Good.weak {z : C} (h : Good z) : Weak z := ⟨h.1.1, h.2.1⟩

theorem lin_weak (a b : ℝ) (x y : W) (h1 : Ok x ∧ |val x - a| ≤ uu * |a| + 4 * eta) (h2 : Ok y ∧ |val y - b| ≤ uu * |b| + 4 * eta) (r : ℂ) (hr : r = ⟨a, b⟩) :
    Good (x, y) ∧ ‖cv (x, y) - r‖ ≤ uu * (2 * ‖r‖) + 8 * eta := by
  subst hr
  refine ⟨⟨h1.1, h2.1⟩, (norm_le_parts _).trans ?_⟩
  have k1 := Complex.abs_re_le_norm (⟨a, b⟩ : ℂ)
  have k2 := Complex.abs_im_le_norm (⟨a, b⟩ : ℂ)
  have g1 : |(cv (x, y) - (⟨a, b⟩ : ℂ)).re| = |val x - a| := rfl
  have g2 : |(cv (x, y) - (⟨a, b⟩ : ℂ)).im| = |val y - b| := rfl
  rw [g1, g2]
  have := h1.2; have := h2.2
  have m1 := mul_le_mul_of_nonneg_left k1 uu_pos.le
  have m2 := mul_le_mul_of_nonneg_left k2 uu_pos.le
  simp only at m1 m2
  linarith

theorem big_le (x : ℝ) (h : x ≤ 2 ^ 200) : x ≤ big := h.trans (pow_le_pow_right₀ (by norm_num) (by norm_num))

theorem wAdd_close (x y : C) (hx : Weak x) (hy : Weak y) (bx : ‖cv x‖ ≤ 2 ^ 100) (bY : ‖cv y‖ ≤ 2 ^ 100) :
    Good (cAdd x y) ∧ ‖cv (cAdd x y) - (cv x + cv y)‖ ≤ uu * (2 * ‖cv x + cv y‖) + 8 * eta := by
  refine lin_weak _ _ _ _ (add_weak _ _ hx.1 hy.1 (big_le _ ?_)) (add_weak _ _ hx.2 hy.2 (big_le _ ?_)) _ rfl
  · norm_num at *; linarith [re_le x, re_le y]
  · norm_num at *; linarith [im_le x, im_le y]

theorem wSub_close (x y : C) (hx : Weak x) (hy : Weak y) (bx : ‖cv x‖ ≤ 2 ^ 100) (bY : ‖cv y‖ ≤ 2 ^ 100) :
    Good (cSub x y) ∧ ‖cv (cSub x y) - (cv x - cv y)‖ ≤ uu * (2 * ‖cv x - cv y‖) + 8 * eta := by
  refine lin_weak _ _ _ _ (sub_weak _ _ hx.1 hy.1 (big_le _ ?_)) (sub_weak _ _ hx.2 hy.2 (big_le _ ?_)) _ rfl
  · norm_num at *; linarith [re_le x, re_le y]
  · norm_num at *; linarith [im_le x, im_le y]

/-- Halving both parts. -/
def hv (z : C) : C := (half z.1, half z.2)

theorem hv_close (z : C) (h : Good z) : Weak (hv z) ∧ ‖cv (hv z) - cv z / 2‖ ≤ 2 * eta := by
  obtain ⟨a1, a2⟩ := half_weak z.1 h.1
  obtain ⟨b1, b2⟩ := half_weak z.2 h.2
  refine ⟨⟨a1, b1⟩, (norm_le_parts _).trans ?_⟩
  have e1 : (cv (hv z) - cv z / 2).re = val (half z.1) - val z.1 / 2 := by
    rw [Complex.sub_re, show cv z / 2 = cv z / ((2 : ℝ) : ℂ) by norm_num, Complex.div_ofReal_re]; rfl
  have e2 : (cv (hv z) - cv z / 2).im = val (half z.2) - val z.2 / 2 := by
    rw [Complex.sub_im, show cv z / 2 = cv z / ((2 : ℝ) : ℂ) by norm_num, Complex.div_ofReal_im]; rfl
  rw [e1, e2]; linarith

/-- `1/|b|^2` as computed by `FPC_DIV`. -/
theorem inv2_slot (b : C) (D : ℝ) (hD : D = ‖cv b‖ ^ 2) (h1 : 1 / 2 ^ 42 ≤ D) (h2 : D ≤ 2 ^ 58) :
    Ok (inv (add (sqr b.1) (sqr b.2))) ∧ |val (inv (add (sqr b.1) (sqr b.2))) * D - 1| ≤ 6 * uu := by
  have u0 := uu_pos
  have e0 := eta_pos
  have et := eta_tiny
  have un := uu_num
  have D0 : 0 < D := lt_of_lt_of_le (by norm_num) h1
  have na : ∀ z : C, ‖cv z‖ ^ 2 = val z.1 ^ 2 + val z.2 ^ 2 := fun z => by
    rw [← Complex.normSq_eq_norm_sq]; unfold cv; rw [Complex.normSq_mk]; ring
  rw [na] at hD
  have p1 := sq_nonneg (val b.1)
  have p2 := sq_nonneg (val b.2)
  have sq : ∀ x : W, val x ^ 2 ≤ D → Ok (sqr x) ∧ |val (sqr x) - val x ^ 2| ≤ 1 * (uu * val x ^ 2) + 1 * eta := fun x hx => by
    rw [one_mul, one_mul]; exact sq_close x (hx.trans (h2.trans (by norm_num)))
  have bd : ∀ x : ℝ, x ≤ D → x ≤ 2 ^ 60 := fun x hx => hx.trans (h2.trans (by norm_num))
  have S := add_pos_close _ _ _ _ 1 1 p1 p2 (bd _ (by linarith)) (bd _ (by linarith)) (by norm_num) (by norm_num) (by norm_num) (by norm_num) (sq b.1 (by linarith)) (sq b.2 (by linarith))
  generalize add (sqr b.1) (sqr b.2) = w at *
  obtain ⟨_, S⟩ := S
  rw [← hD] at S
  have S' : |val w - D| ≤ 4 * uu * D := by
    refine S.trans ?_
    have : uu * (1 / 2 ^ 42) ≤ uu * D := mul_le_mul_of_nonneg_left h1 u0.le
    norm_num at *
    linarith
  have sm : 4 * uu * D ≤ D / 1000 := by rw [un]; norm_num; linarith
  obtain ⟨s1, s2⟩ := abs_le.1 S'
  have w0 : 0 < val w := by linarith
  have iw : 1 / val w ≤ 2 ^ 43 := by
    rw [div_le_iff₀ w0]; norm_num at *; linarith
  have ip : 0 < 1 / val w := by positivity
  obtain ⟨o, r⟩ := rd _ _ (C99_inv w w0.ne') (by rw [abs_of_pos ip]; exact iw.trans (by norm_num))
  refine ⟨o, ?_⟩
  rw [abs_of_pos ip] at r
  generalize val (inv w) = i at *
  have q1 : D / val w ≤ 1002 / 1000 := by rw [div_le_iff₀ w0]; linarith
  have q0 : 0 ≤ D / val w := by positivity
  have e1 : i * D - 1 = (i - 1 / val w) * D + (D - val w) / val w := by field_simp; ring
  have t1 : |(i - 1 / val w) * D| ≤ (uu * (1 / val w) + eta) * D := by rw [abs_mul, abs_of_pos D0]; exact mul_le_mul_of_nonneg_right r D0.le
  have t2 : |(D - val w) / val w| ≤ 4 * uu * (D / val w) := by
    rw [abs_div, abs_of_pos w0, abs_sub_comm, div_le_iff₀ w0, mul_assoc, div_mul_cancel₀ _ w0.ne']; exact S'
  have t3 : (uu * (1 / val w) + eta) * D = uu * (D / val w) + eta * D := by ring
  have t4 : eta * D ≤ uu * (1 / 2 ^ 100) * 2 ^ 58 := mul_le_mul et h2 D0.le (by positivity)
  have t5 : uu * (D / val w) ≤ uu * (1002 / 1000) := mul_le_mul_of_nonneg_left q1 u0.le
  rw [e1]
  refine (abs_add_le _ _).trans ?_
  rw [t3] at t1
  norm_num at *
  linarith

/-- The inverse of `b` as computed by `FPC_DIV`. -/
theorem cinv_close (b : C) (h1 : 1 / 2 ^ 20 ≤ ‖cv b‖) (h2 : ‖cv b‖ ≤ 2 ^ 29) :
    ‖cv (mul b.1 (inv (add (sqr b.1) (sqr b.2))), mul (neg b.2) (inv (add (sqr b.1) (sqr b.2)))) * cv b - 1‖ ≤ 10 * uu := by
  have u0 := uu_pos
  have e0 := eta_pos
  have et := eta_tiny
  have un := uu_num
  obtain ⟨N, hN⟩ : ∃ N, ‖cv b‖ = N := ⟨_, rfl⟩
  have N0 : 0 < N := lt_of_lt_of_le (by norm_num) (hN ▸ h1)
  obtain ⟨_, ci⟩ := inv2_slot b (N ^ 2) (by rw [hN]) (by rw [hN] at h1; nlinarith) (by rw [hN] at h2; nlinarith)
  generalize inv (add (sqr b.1) (sqr b.2)) = i at *
  have r1 := re_le b
  have r2 := im_le b
  rw [hN] at h1 h2 r1 r2
  obtain ⟨c1, c2⟩ := abs_le.1 ci
  have usm : 6 * uu ≤ 1 / 1000 := by rw [un]; norm_num
  have i0 : 0 ≤ val i := by
    by_contra hn
    push Not at hn
    have : val i * N ^ 2 < 0 := mul_neg_of_neg_of_pos hn (by positivity)
    linarith
  have iN : val i * N ≤ 1002 / 1000 * (1 / N) := by
    rw [mul_one_div, le_div_iff₀ N0]; nlinarith
  have iN2 : val i * N ≤ 2 ^ 21 := by
    refine iN.trans ?_
    have : 1 / N ≤ 2 ^ 20 := by rw [div_le_iff₀ N0]; norm_num at *; linarith
    linarith
  have wd : ∀ x : W, |val x| ≤ N → |val (mul x i) - val x * val i| ≤ uu * (|val x| * val i) + eta := fun x hx => by
    have hb : |val x * val i| ≤ 2 ^ 200 := by
      rw [abs_mul, abs_of_nonneg i0]
      calc |val x| * val i ≤ N * val i := mul_le_mul_of_nonneg_right hx i0
        _ ≤ _ := by rw [mul_comm]; exact iN2.trans (by norm_num)
    have := (rd _ _ (C99_mul x i) hb).2
    rwa [abs_mul, abs_of_nonneg i0] at this
  have w1 := wd b.1 r1
  have w2 := wd (neg b.2) (by rw [(C99_neg _).1, abs_neg]; exact r2)
  rw [(C99_neg _).1, abs_neg] at w2
  obtain ⟨z, hz⟩ : ∃ z, cv (mul b.1 i, mul (neg b.2) i) = z := ⟨_, rfl⟩
  have cz : ‖z - (val i : ℂ) * (starRingEnd ℂ) (cv b)‖ ≤ uu * (2 * (N * val i)) + 2 * eta := by
    refine (norm_le_parts _).trans ?_
    have g1 : (z - (val i : ℂ) * (starRingEnd ℂ) (cv b)).re = val (mul b.1 i) - val b.1 * val i := by
      rw [← hz, Complex.sub_re, Complex.re_ofReal_mul, Complex.conj_re]; unfold cv; ring
    have g2 : (z - (val i : ℂ) * (starRingEnd ℂ) (cv b)).im = val (mul (neg b.2) i) - -val b.2 * val i := by
      rw [← hz, Complex.sub_im, Complex.im_ofReal_mul, Complex.conj_im]; unfold cv; ring
    rw [g1, g2]
    have m1 := mul_le_mul_of_nonneg_left (mul_le_mul_of_nonneg_right r1 i0) u0.le
    have m2 := mul_le_mul_of_nonneg_left (mul_le_mul_of_nonneg_right r2 i0) u0.le
    linarith
  rw [hz]
  have e : z * cv b - 1 = (z - (val i : ℂ) * (starRingEnd ℂ) (cv b)) * cv b + ((val i * N ^ 2 - 1 : ℝ) : ℂ) := by
    have : (starRingEnd ℂ) (cv b) * cv b = ((N ^ 2 : ℝ) : ℂ) := by
      rw [← hN, mul_comm, Complex.mul_conj, Complex.normSq_eq_norm_sq]
    push_cast at this ⊢
    linear_combination (val i : ℂ) * this
  rw [e]
  refine (norm_add_le _ _).trans ?_
  rw [norm_mul, hN, Complex.norm_real, Real.norm_eq_abs]
  have k := mul_le_mul_of_nonneg_right cz N0.le
  have k2 : (uu * (2 * (N * val i)) + 2 * eta) * N = 2 * (uu * (val i * N ^ 2)) + 2 * eta * N := by ring
  have k3 : uu * (val i * N ^ 2) ≤ uu * (1002 / 1000) := mul_le_mul_of_nonneg_left (by linarith) u0.le
  have k4 : eta * N ≤ uu * (1 / 2 ^ 100) * 2 ^ 29 := mul_le_mul et h2 N0.le (by positivity)
  rw [k2] at k
  norm_num at *
  linarith

/-- `FPC_DIV`. -/
theorem cDiv_close (a b : C) (h1 : 1 / 2 ^ 20 ≤ ‖cv b‖) (h2 : ‖cv b‖ ≤ 2 ^ 29) (ha : ‖cv a‖ ≤ 2 ^ 60) :
    Good (cDiv a b) ∧ ‖cv (cDiv a b) - cv a / cv b‖ ≤ 16 * uu * (‖cv a‖ / ‖cv b‖) + 8 * eta := by
  have u0 := uu_pos
  have un := uu_num
  have hi := cinv_close b h1 h2
  unfold cDiv
  dsimp only
  generalize (mul b.1 (inv (add (sqr b.1) (sqr b.2))), mul (neg b.2) (inv (add (sqr b.1) (sqr b.2)))) = i at *
  have N0 : 0 < ‖cv b‖ := lt_of_lt_of_le (by norm_num) h1
  have b0 : cv b ≠ 0 := norm_pos_iff.1 N0
  have usm : 10 * uu ≤ 1 / 1000 := by rw [un]; norm_num
  have di : ‖cv i - 1 / cv b‖ ≤ 10 * uu * (1 / ‖cv b‖) := by
    have : cv i - 1 / cv b = (cv i * cv b - 1) / cv b := by field_simp
    rw [this, norm_div, ← div_eq_mul_one_div]
    exact div_le_div_of_nonneg_right hi N0.le
  have ni : ‖cv i‖ ≤ 1001 / 1000 * (1 / ‖cv b‖) := by
    have := norm_add_le (cv i - 1 / cv b) (1 / cv b)
    rw [sub_add_cancel, norm_div, norm_one] at this
    have p : 0 < 1 / ‖cv b‖ := by positivity
    nlinarith
  have nb : 1 / ‖cv b‖ ≤ 2 ^ 20 := by rw [div_le_iff₀ N0]; norm_num at *; linarith
  have pr : ‖cv a‖ * ‖cv i‖ ≤ 1001 / 1000 * (‖cv a‖ / ‖cv b‖) := by
    have := mul_le_mul_of_nonneg_left ni (norm_nonneg (cv a))
    rw [div_eq_mul_one_div ‖cv a‖]; linarith
  have pr2 : ‖cv a‖ * ‖cv i‖ ≤ big := by
    refine big_le _ ((mul_le_mul ha (ni.trans (mul_le_mul_of_nonneg_left nb (by norm_num))) (norm_nonneg _) (by positivity)).trans (by norm_num))
  obtain ⟨g, c⟩ := cMul_close a i pr2
  refine ⟨g, ?_⟩
  have e : cv (cMul a i) - cv a / cv b = (cv (cMul a i) - cv a * cv i) + cv a * (cv i - 1 / cv b) := by rw [div_eq_mul_one_div]; ring
  rw [e]
  refine (norm_add_le _ _).trans ?_
  rw [norm_mul]
  have t := mul_le_mul_of_nonneg_left di (norm_nonneg (cv a))
  have t2 : ‖cv a‖ * (10 * uu * (1 / ‖cv b‖)) = 10 * (uu * (‖cv a‖ / ‖cv b‖)) := by rw [div_eq_mul_one_div]; ring
  rw [t2] at t
  have t3 := mul_le_mul_of_nonneg_left pr u0.le
  have t4 : 0 ≤ uu * (‖cv a‖ / ‖cv b‖) := by positivity
  linarith

/-- The conjugate of a slot. -/
theorem conj_cv (b : C) : cv (b.1, neg b.2) = (starRingEnd ℂ) (cv b) := by
  unfold cv; apply Complex.ext
  · rfl
  · show val (neg _) = _; rw [(C99_neg _).1]; rfl

/-- The diagonal element of `poly_LDL_fft` in one slot. -/
theorem ldl_close (a b c : C) (hc : Weak c) (h1 : 1 ≤ ‖cv a‖) (h2 : ‖cv a‖ ≤ 2 ^ 29) (hb : ‖cv b‖ ≤ 2 ^ 40) (hcb : ‖cv c‖ ≤ 2 ^ 60) :
    Good (cSub c (cMul (cDiv b a) (b.1, neg b.2))) ∧
    ‖cv (cSub c (cMul (cDiv b a) (b.1, neg b.2))) - (cv c - ‖cv b‖ ^ 2 / cv a)‖ ≤ uu * (26 * (‖cv b‖ ^ 2 / ‖cv a‖) + 2 * ‖cv c‖ + 1) := by
  have u0 := uu_pos
  have e0 := eta_pos
  have et := eta_tiny
  have un := uu_num
  have N0 : 0 < ‖cv a‖ := by linarith
  have a0 : cv a ≠ 0 := norm_pos_iff.1 N0
  obtain ⟨_, cd⟩ := cDiv_close b a (le_trans (by norm_num) h1) h2 (hb.trans (by norm_num))
  generalize cDiv b a = mu at *
  have hb0 := norm_nonneg (cv b)
  obtain ⟨β, hβ⟩ : ∃ β, ‖cv b‖ = β := ⟨_, rfl⟩
  obtain ⟨α, hα⟩ : ∃ α, ‖cv a‖ = α := ⟨_, rfl⟩
  obtain ⟨Q, hQ⟩ : ∃ Q, β / α = Q := ⟨_, rfl⟩
  rw [hβ] at hb hb0 cd
  rw [hα] at h1 h2 N0 cd
  rw [hQ] at cd
  have Q0 : 0 ≤ Q := by rw [← hQ]; positivity
  have Qb : Q ≤ 2 ^ 40 := by rw [← hQ, div_le_iff₀ N0]; nlinarith
  have nq : ‖cv b / cv a‖ = Q := by rw [norm_div, hα, hβ, hQ]
  have et2 : eta ≤ 1 / 2 ^ 100 := et.trans (by rw [un]; norm_num)
  have usm : 16 * uu ≤ 1 / 1000 := by rw [un]; norm_num
  have nmu : ‖cv mu‖ ≤ 1001 / 1000 * Q + 8 * eta := by
    have := norm_add_le (cv mu - cv b / cv a) (cv b / cv a)
    rw [sub_add_cancel, nq] at this
    nlinarith
  have nc : ‖cv (b.1, neg b.2)‖ = β := by rw [conj_cv, RCLike.norm_conj, hβ]
  have pr : ‖cv mu‖ * β ≤ 1001 / 1000 * (Q * β) + 8 * eta * 2 ^ 40 := by
    have := mul_le_mul_of_nonneg_right nmu hb0
    have k : 8 * eta * β ≤ 8 * eta * 2 ^ 40 := mul_le_mul_of_nonneg_left hb (by positivity)
    linarith
  have QB : Q * β ≤ 2 ^ 80 := (mul_le_mul Qb hb hb0 (by positivity)).trans (by norm_num)
  have pr2 : ‖cv mu‖ * β ≤ 2 ^ 81 := by norm_num at *; linarith
  obtain ⟨g1, cm⟩ := cMul_close mu (b.1, neg b.2) (by rw [nc]; exact big_le _ (pr2.trans (by norm_num)))
  rw [nc] at cm
  generalize hp : cMul mu (b.1, neg b.2) = p at *
  obtain ⟨X, hX⟩ : ∃ X, Q * β = X := ⟨_, rfl⟩
  rw [hX] at QB pr
  have X0 : 0 ≤ X := by rw [← hX]; positivity
  have eX : β ^ 2 / α = X := by rw [← hX, ← hQ]; ring
  have eT : ((β : ℂ)) ^ 2 / cv a = (cv b / cv a) * (starRingEnd ℂ) (cv b) := by
    rw [div_mul_eq_mul_div, Complex.mul_conj, Complex.normSq_eq_norm_sq, hβ]; push_cast; ring
  have nT : ‖((β : ℂ)) ^ 2 / cv a‖ = X := by rw [eT, norm_mul, nq, RCLike.norm_conj, hβ, hX]
  have dp : ‖cv p - (β : ℂ) ^ 2 / cv a‖ ≤ uu * (22 * X) + uu / 4 := by
    rw [eT, show cv p - cv b / cv a * (starRingEnd ℂ) (cv b) = (cv p - cv mu * cv (b.1, neg b.2)) + (cv mu - cv b / cv a) * (starRingEnd ℂ) (cv b) by rw [conj_cv]; ring]
    refine (norm_add_le _ _).trans ?_
    rw [norm_mul, RCLike.norm_conj, hβ]
    have k1 := mul_le_mul_of_nonneg_right cd hb0
    have k2 : (16 * uu * Q + 8 * eta) * β = 16 * (uu * X) + 8 * (eta * β) := by rw [← hX]; ring
    have k3 : eta * β ≤ uu * (1 / 2 ^ 100) * 2 ^ 40 := mul_le_mul et hb hb0 (by positivity)
    have k4 := mul_le_mul_of_nonneg_left pr u0.le
    have k5 : uu * (8 * eta * 2 ^ 40) ≤ uu * (1 / 2 ^ 50) := mul_le_mul_of_nonneg_left (by norm_num at *; linarith) u0.le
    have k6 : 0 ≤ uu * X := by positivity
    rw [k2] at k1
    norm_num at *
    linarith
  have np : ‖cv p‖ ≤ 2 * X + 1 := by
    have := norm_add_le (cv p - (β : ℂ) ^ 2 / cv a) ((β : ℂ) ^ 2 / cv a)
    rw [sub_add_cancel, nT] at this
    have : uu * (22 * X) ≤ X / 2 := by rw [un]; norm_num; linarith
    have : uu / 4 ≤ 1 := by rw [un]; norm_num
    linarith
  obtain ⟨g2, cs⟩ := wSub_close c p hc g1.weak (hcb.trans (by norm_num)) (by norm_num at *; linarith)
  refine ⟨g2, ?_⟩
  rw [hβ, hα, eX]
  have e : cv (cSub c p) - (cv c - (β : ℂ) ^ 2 / cv a) = (cv (cSub c p) - (cv c - cv p)) - (cv p - (β : ℂ) ^ 2 / cv a) := by ring
  rw [e]
  refine (norm_sub_le _ _).trans ?_
  have m1 : ‖cv c - cv p‖ ≤ ‖cv c‖ + (X + (uu * (22 * X) + uu / 4)) := by
    refine (norm_sub_le _ _).trans (add_le_add_right ?_ _)
    have := norm_add_le (cv p - (β : ℂ) ^ 2 / cv a) ((β : ℂ) ^ 2 / cv a)
    rw [sub_add_cancel, nT] at this
    linarith
  have m2 := mul_le_mul_of_nonneg_left m1 u0.le
  have m3 : uu * (uu * (22 * X)) ≤ uu * (X / 1000) := mul_le_mul_of_nonneg_left (by rw [un]; norm_num; linarith) u0.le
  have m4 : uu * (uu / 4) ≤ uu * (1 / 1000) := mul_le_mul_of_nonneg_left (by rw [un]; norm_num) u0.le
  have m5 : 0 ≤ uu * X := by positivity
  norm_num at *
  linarith

end Verif.CRef.Fft
