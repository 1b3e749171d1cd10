import Verif.CRef.Orth
import Verif.CRef.OrthParseval

/-! # One slot of the orthogonalized vector -/

namespace Verif.CRef.Orth

open Verif.CRef.Fpr Verif.CRef.Fft

theorem eta_tiny : eta ≤ uu * (1 / 2 ^ 100) := by
  have h := range_eta (1 / 2 ^ 90) ⟨by
    rw [show ((2 : ℝ) ^ (-900 : ℤ)) = 1 / 2 ^ 900 by rw [zpow_neg, one_div]; norm_cast]
    exact one_div_le_one_div_of_le (by positivity) (pow_le_pow_right₀ (by norm_num) (by norm_num)), by
    refine le_trans (b := 1) (by norm_num) (one_le_pow₀ (by norm_num))⟩
  refine h.trans (le_of_eq (by norm_num; ring))

theorem le_huge (x : ℝ) (h : x ≤ 2 ^ 200) : x ≤ huge := h.trans (pow_le_pow_right₀ (by norm_num) (by norm_num))

/-- The rounding of `r` for moderate `r`. -/
theorem rd (r : ℝ) (z : W) (h : Rounded r z) (hr : |r| ≤ 2 ^ 200) : Ok z ∧ |val z - r| ≤ uu * |r| + eta := rounded_close r z h (le_huge _ hr)

theorem sq_close (x : W) (h : val x ^ 2 ≤ 2 ^ 100) : Ok (sqr x) ∧ |val (sqr x) - val x ^ 2| ≤ uu * val x ^ 2 + eta := by
  have p : val x * val x = val x ^ 2 := by ring
  have := rd _ _ (C99_mul x x)
  rw [p, abs_of_nonneg (sq_nonneg _)] at this
  exact this (h.trans (by norm_num))

theorem uu_num : uu = 1 / 2 ^ 53 := rfl

/-- Sum of two approximations of nonnegative numbers. -/
theorem add_pos_close (x y : W) (X Y c d : ℝ) (hX : 0 ≤ X) (hY : 0 ≤ Y) (hX2 : X ≤ 2 ^ 60) (hY2 : Y ≤ 2 ^ 60) (hc : 0 ≤ c) (hc2 : c ≤ 2 ^ 20) (hd : 0 ≤ d) (hd2 : d ≤ 2 ^ 20)
    (h1 : Ok x ∧ |val x - X| ≤ c * (uu * X) + d * eta) (h2 : Ok y ∧ |val y - Y| ≤ c * (uu * Y) + d * eta) :
    Ok (add x y) ∧ |val (add x y) - (X + Y)| ≤ (c + 2) * (uu * (X + Y)) + (2 * d + 2) * eta := by
  have u0 := uu_pos
  have e0 := eta_pos
  have et := eta_tiny
  have un := uu_num
  have cu : c * uu ≤ 1 / 2 := by rw [un]; norm_num at *; linarith
  have du : d * uu ≤ 1 / 4 := by rw [un]; norm_num at *; linarith
  have cX : c * (uu * X) ≤ X / 2 := by have := mul_le_mul_of_nonneg_right cu hX; linarith
  have cY : c * (uu * Y) ≤ Y / 2 := by have := mul_le_mul_of_nonneg_right cu hY; linarith
  have dE : d * eta ≤ 2 ^ 20 * eta := mul_le_mul_of_nonneg_right hd2 e0.le
  have es : eta ≤ 1 / 2 ^ 100 := et.trans (by rw [un]; norm_num)
  have duE : d * uu * eta ≤ 1 / 4 * eta := mul_le_mul_of_nonneg_right du e0.le
  obtain ⟨a1, a2⟩ := abs_le.1 h1.2
  obtain ⟨b1, b2⟩ := abs_le.1 h2.2
  have s : |val x + val y| ≤ 2 * (X + Y) + 2 * (d * eta) := by rw [abs_le]; constructor <;> linarith
  obtain ⟨o, r⟩ := rd _ _ (C99_add x y h1.1 h2.1) (s.trans (by norm_num at *; linarith))
  refine ⟨o, ?_⟩
  have us := mul_le_mul_of_nonneg_left s u0.le
  have eq : uu * (2 * (X + Y) + 2 * (d * eta)) = 2 * (uu * (X + Y)) + 2 * (d * uu * eta) := by ring
  rw [eq] at us
  obtain ⟨r1, r2⟩ := abs_le.1 r
  rw [abs_le]
  constructor <;> linarith

/-- The inverse of the squared norm of a slot. -/
theorem inv_slot (a b : C) (D : ℝ) (hD : D = ‖cv a‖ ^ 2 + ‖cv b‖ ^ 2) (h1 : 1 / 2 ^ 42 ≤ D) (h2 : D ≤ 2 ^ 42) :
    Ok (inv (add (add (sqr a.1) (sqr a.2)) (add (sqr b.1) (sqr b.2)))) ∧ |val (inv (add (add (sqr a.1) (sqr a.2)) (add (sqr b.1) (sqr b.2)))) * D - 1| ≤ 8 * uu := by
  have u0 := uu_pos
  have e0 := eta_pos
  have et := eta_tiny
  have un := uu_num
  have D0 : 0 < D := lt_of_lt_of_le (by norm_num) h1
  have na : ∀ z : C, ‖cv z‖ ^ 2 = val z.1 ^ 2 + val z.2 ^ 2 := fun z => by
    rw [← Complex.normSq_eq_norm_sq]; unfold cv; rw [Complex.normSq_mk]; ring
  rw [na, na] at hD
  have p1 := sq_nonneg (val a.1)
  have p2 := sq_nonneg (val a.2)
  have p3 := sq_nonneg (val b.1)
  have p4 := sq_nonneg (val b.2)
  have sq : ∀ x : W, val x ^ 2 ≤ D → Ok (sqr x) ∧ |val (sqr x) - val x ^ 2| ≤ 1 * (uu * val x ^ 2) + 1 * eta := fun x hx => by
    rw [one_mul, one_mul]; exact sq_close x (hx.trans (h2.trans (by norm_num)))
  have bd : ∀ x : ℝ, x ≤ D → x ≤ 2 ^ 60 := fun x hx => hx.trans (h2.trans (by norm_num))
  have A := add_pos_close _ _ _ _ 1 1 p1 p2 (bd _ (by linarith)) (bd _ (by linarith)) (by norm_num) (by norm_num) (by norm_num) (by norm_num) (sq a.1 (by linarith)) (sq a.2 (by linarith))
  have B := add_pos_close _ _ _ _ 1 1 p3 p4 (bd _ (by linarith)) (bd _ (by linarith)) (by norm_num) (by norm_num) (by norm_num) (by norm_num) (sq b.1 (by linarith)) (sq b.2 (by linarith))
  have S := add_pos_close _ _ _ _ (1 + 2) (2 * 1 + 2) (add_nonneg p1 p2) (add_nonneg p3 p4) (bd _ (by linarith)) (bd _ (by linarith)) (by norm_num) (by norm_num) (by norm_num) (by norm_num) A B
  generalize add (add (sqr a.1) (sqr a.2)) (add (sqr b.1) (sqr b.2)) = w at *
  obtain ⟨_, S⟩ := S
  rw [show val a.1 ^ 2 + val a.2 ^ 2 + (val b.1 ^ 2 + val b.2 ^ 2) = D by rw [hD]] at S
  have S' : |val w - D| ≤ 6 * uu * D := by
    refine S.trans ?_
    have : uu * (1 / 2 ^ 42) ≤ uu * D := mul_le_mul_of_nonneg_left h1 u0.le
    norm_num at *
    linarith
  have sm : 6 * uu * D ≤ D / 1000 := by rw [un]; norm_num; linarith
  obtain ⟨s1, s2⟩ := abs_le.1 S'
  have w0 : 0 < val w := by linarith
  have iw : 1 / val w ≤ 2 ^ 43 := by
    rw [div_le_iff₀ w0]; norm_num at *; linarith
  have ip : 0 < 1 / val w := by positivity
  obtain ⟨o, r⟩ := rd _ _ (C99_inv w w0.ne') (by rw [abs_of_pos ip]; exact iw.trans (by norm_num))
  refine ⟨o, ?_⟩
  rw [abs_of_pos ip] at r
  generalize val (inv w) = i at *
  -- `i D - 1 = (i - 1/w) D + (D - w)/w`
  have q1 : D / val w ≤ 1002 / 1000 := by rw [div_le_iff₀ w0]; linarith
  have q0 : 0 ≤ D / val w := by positivity
  have e1 : i * D - 1 = (i - 1 / val w) * D + (D - val w) / val w := by field_simp; ring
  have t1 : |(i - 1 / val w) * D| ≤ (uu * (1 / val w) + eta) * D := by rw [abs_mul, abs_of_pos D0]; exact mul_le_mul_of_nonneg_right r D0.le
  have t2 : |(D - val w) / val w| ≤ 6 * uu * (D / val w) := by
    rw [abs_div, abs_of_pos w0, abs_sub_comm, div_le_iff₀ w0, mul_assoc, div_mul_cancel₀ _ w0.ne']; exact S'
  have t3 : (uu * (1 / val w) + eta) * D = uu * (D / val w) + eta * D := by ring
  have t4 : eta * D ≤ uu * (1 / 2 ^ 100) * 2 ^ 42 := mul_le_mul et h2 D0.le (by positivity)
  have t5 : uu * (D / val w) ≤ uu * (1002 / 1000) := mul_le_mul_of_nonneg_left q1 u0.le
  rw [e1]
  refine (abs_add_le _ _).trans ?_
  rw [t3] at t1
  norm_num at *
  linarith

/-- One word of the result. -/
theorem word_close (x i : W) (D : ℝ) (h1 : 1 / 2 ^ 42 ≤ D) (hi : |val i * D - 1| ≤ 8 * uu) (hx : |val x| ≤ 2 ^ 21) :
    Ok (mul (mul x fprQ) i) ∧ |val (mul (mul x fprQ) i) - 12289 * val x / D| ≤ 11 * uu * (12289 * |val x| / D) + 2 ^ 44 * eta := by
  have u0 := uu_pos
  have e0 := eta_pos
  have un := uu_num
  have D0 : 0 < D := lt_of_lt_of_le (by norm_num) h1
  have r1 := rd _ _ (C99_mul x fprQ)
  rw [C100_exact.1] at r1
  obtain ⟨_, r1⟩ := r1 (by rw [abs_mul, abs_of_pos (show (0 : ℝ) < 12289 by norm_num)]; norm_num at *; linarith)
  rw [abs_mul, abs_of_pos (show (0 : ℝ) < 12289 by norm_num)] at r1
  obtain ⟨y, hy⟩ : ∃ y, mul x fprQ = y := ⟨_, rfl⟩
  rw [hy] at r1 ⊢
  -- the inverse
  have iD : 1 / D ≤ 2 ^ 42 := by rw [div_le_iff₀ D0]; norm_num at *; linarith
  have iD0 : 0 < 1 / D := by positivity
  have hi' : |val i - 1 / D| ≤ 8 * uu * (1 / D) := by
    have e : val i - 1 / D = (val i * D - 1) * (1 / D) := by field_simp
    rw [e, abs_mul, abs_of_pos iD0]
    exact mul_le_mul_of_nonneg_right hi iD0.le
  have sm : 8 * uu * (1 / D) ≤ 1 / D / 1000 := by
    have := mul_le_mul_of_nonneg_right (show 8 * uu ≤ 1 / 1000 by rw [un]; norm_num) iD0.le
    linarith
  obtain ⟨i1, i2⟩ := abs_le.1 hi'
  have ai : |val i| ≤ 1001 / 1000 * (1 / D) := by rw [abs_le]; constructor <;> linarith
  have es : eta ≤ 1 / 2 ^ 100 := eta_tiny.trans (by rw [un]; norm_num)
  obtain ⟨X, hX⟩ : ∃ X, |val x| * 12289 = X := ⟨_, rfl⟩
  have X0 : 0 ≤ X := by rw [← hX]; positivity
  have Xb : X ≤ 2 ^ 35 := by rw [← hX]; norm_num at *; linarith
  rw [hX] at r1
  have uX : uu * X ≤ X / 1000 := by rw [un]; norm_num; linarith
  have ay : |val y| ≤ 1001 / 1000 * X + eta := by
    have t := abs_add_le (val y - val x * 12289) (val x * 12289)
    rw [sub_add_cancel, abs_mul, abs_of_pos (show (0 : ℝ) < 12289 by norm_num), hX] at t
    linarith
  have XD : X * (1 / D) ≤ 2 ^ 35 * 2 ^ 42 := mul_le_mul Xb iD iD0.le (by norm_num)
  have XD0 : 0 ≤ X * (1 / D) := by positivity
  have eD : eta * (1 / D) ≤ eta * 2 ^ 42 := mul_le_mul_of_nonneg_left iD e0.le
  have yi : |val y * val i| ≤ 11 / 10 * (X * (1 / D)) + 2 * (eta * (1 / D)) := by
    rw [abs_mul]
    refine (mul_le_mul ay ai (abs_nonneg _) (by positivity)).trans ?_
    have : 0 ≤ eta * (1 / D) := by positivity
    linarith
  obtain ⟨o, r2⟩ := rd _ _ (C99_mul y i) (yi.trans (by norm_num at *; linarith))
  refine ⟨o, ?_⟩
  have us := mul_le_mul_of_nonneg_left yi u0.le
  generalize val (mul y i) = z at *
  generalize val y = yv at *
  generalize val i = iv at *
  have hgoal : 12289 * |val x| / D = X * (1 / D) := by rw [← hX]; ring
  rw [hgoal]
  have e : z - 12289 * val x / D = (z - yv * iv) + (yv - val x * 12289) * iv + (val x * 12289) * (iv - 1 / D) := by ring
  have t1 : |(yv - val x * 12289) * iv| ≤ (uu * X + eta) * (1001 / 1000 * (1 / D)) := by rw [abs_mul]; exact mul_le_mul r1 ai (abs_nonneg _) (by positivity)
  have t2 : |(val x * 12289) * (iv - 1 / D)| ≤ X * (8 * uu * (1 / D)) := by
    rw [abs_mul, abs_mul, abs_of_pos (show (0 : ℝ) < 12289 by norm_num), hX]; exact mul_le_mul_of_nonneg_left hi' X0
  rw [e]
  refine (abs_add_le _ _).trans ((add_le_add_left (abs_add_le _ _) _).trans ?_)
  have k1 : (uu * X + eta) * (1001 / 1000 * (1 / D)) = 1001 / 1000 * (uu * (X * (1 / D))) + 1001 / 1000 * (eta * (1 / D)) := by ring
  have k2 : X * (8 * uu * (1 / D)) = 8 * (uu * (X * (1 / D))) := by ring
  have k3 : uu * (11 / 10 * (X * (1 / D)) + 2 * (eta * (1 / D))) = 11 / 10 * (uu * (X * (1 / D))) + 2 * uu * (eta * (1 / D)) := by ring
  have k4 : 2 * uu * (eta * (1 / D)) ≤ 1 / 1000 * (eta * (1 / D)) := mul_le_mul_of_nonneg_right (by rw [un]; norm_num) (by positivity)
  have k5 : 0 ≤ uu * (X * (1 / D)) := by positivity
  rw [k1] at t1
  rw [k2] at t2
  rw [k3] at us
  norm_num at *
  linarith

/-- A slot of the result: `q conj(a) / (|a|^2 + |b|^2)`. -/
theorem slot_close (a : C) (i : W) (D : ℝ) (h1 : 1 / 2 ^ 42 ≤ D) (h2 : D ≤ 2 ^ 42) (ha : ‖cv a‖ ^ 2 ≤ D) (hi : |val i * D - 1| ≤ 8 * uu) :
    Good (mul (mul a.1 fprQ) i, mul (mul (neg a.2) fprQ) i) ∧
    ‖cv (mul (mul a.1 fprQ) i, mul (mul (neg a.2) fprQ) i) - 12289 * (starRingEnd ℂ) (cv a) / (D : ℂ)‖ ≤ 23 * uu * (12289 / Real.sqrt D) := by
  have u0 := uu_pos
  have e0 := eta_pos
  have et := eta_tiny
  have un := uu_num
  have D0 : 0 < D := lt_of_lt_of_le (by norm_num) h1
  have sD : ‖cv a‖ ≤ Real.sqrt D := Real.le_sqrt_of_sq_le ha
  have sD2 : Real.sqrt D ≤ 2 ^ 21 := by rw [Real.sqrt_le_left (by norm_num)]; exact h2.trans (by norm_num)
  have sD0 : 0 < Real.sqrt D := Real.sqrt_pos.2 D0
  have a1 := (re_le a).trans sD
  have a2 := (im_le a).trans sD
  have n2 : val (neg a.2) = - val a.2 := (C99_neg _).1
  obtain ⟨o1, c1⟩ := word_close a.1 i D h1 hi (a1.trans sD2)
  obtain ⟨o2, c2⟩ := word_close (neg a.2) i D h1 hi (by rw [n2, abs_neg]; exact a2.trans sD2)
  rw [n2, abs_neg] at c2
  refine ⟨⟨o1, o2⟩, ?_⟩
  have hs : Real.sqrt D * Real.sqrt D = D := Real.mul_self_sqrt D0.le
  have bd : ∀ x : ℝ, x ≤ Real.sqrt D → 12289 * x / D ≤ 12289 / Real.sqrt D := by
    intro x hx
    have hx2 := mul_le_mul_of_nonneg_right hx sD0.le
    rw [hs] at hx2
    rw [div_le_div_iff₀ D0 sD0]
    linarith
  have b1 := mul_le_mul_of_nonneg_left (bd _ a1) (show 0 ≤ 11 * uu by positivity)
  have b2 := mul_le_mul_of_nonneg_left (bd _ a2) (show 0 ≤ 11 * uu by positivity)
  have lo : 1 / 2 ^ 21 ≤ 12289 / Real.sqrt D := by
    rw [div_le_div_iff₀ (by norm_num) sD0]; norm_num at *; linarith
  have lo2 := mul_le_mul_of_nonneg_left lo u0.le
  refine (norm_le_parts _).trans ?_
  have er : (cv (mul (mul a.1 fprQ) i, mul (mul (neg a.2) fprQ) i) - 12289 * (starRingEnd ℂ) (cv a) / (D : ℂ)).re = val (mul (mul a.1 fprQ) i) - 12289 * val a.1 / D := by
    rw [Complex.sub_re, Complex.div_ofReal_re, show (12289 : ℂ) = ((12289 : ℝ) : ℂ) by push_cast; rfl, Complex.re_ofReal_mul, Complex.conj_re]; rfl
  have ei : (cv (mul (mul a.1 fprQ) i, mul (mul (neg a.2) fprQ) i) - 12289 * (starRingEnd ℂ) (cv a) / (D : ℂ)).im = val (mul (mul (neg a.2) fprQ) i) - 12289 * -val a.2 / D := by
    rw [Complex.sub_im, Complex.div_ofReal_im, show (12289 : ℂ) = ((12289 : ℝ) : ℂ) by push_cast; rfl, Complex.im_ofReal_mul, Complex.conj_im]; rfl
  rw [er, ei]
  norm_num at *
  linarith

end Verif.CRef.Orth
