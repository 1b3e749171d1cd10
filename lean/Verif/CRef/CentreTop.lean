import Verif.CRef.CentreRoot

/-! # The targets of the root -/

namespace Verif.CRef.Fft

open Verif.CRef.Kg Verif.CRef Verif.CRef.Fpr Verif.CRef.Orth Verif.CRef.SignDyn Verif.Falcon

theorem mulconst_slot (s : ℕ) (a : List W) (x : W) (p : ℕ) (hp : p < 2 ^ s) : slot (polyMulconst a x (s + 1)) (2 ^ s) p = (mul (slot a (2 ^ s) p).1 x, mul (slot a (2 ^ s) p).2 x) := by
  unfold polyMulconst slot
  rw [map_get _ _ p (by rw [pow_succ]; omega), map_get _ _ (p + 2 ^ s) (by rw [pow_succ]; omega)]

/-- The transform of a message point. -/
theorem fft_point (s : ℕ) (hs : s ≤ 9) (hm : List ℕ) (hl : hm.length = 2 ^ (s + 1)) (hq : ∀ x ∈ hm, x < 12289) : ∀ p < 2 ^ s, ‖cv (slot (fft (toFpr (hm.map Int.ofNat) (s + 1)) (s + 1)) (2 ^ s) p)‖ ≤ 2 ^ 24 := by
  have hb : ∀ x ∈ hm.map Int.ofNat, |x| ≤ (12288 : ℤ) := fun x hx => by
    obtain ⟨y, hy, rfl⟩ := List.mem_map.1 hx
    have := hq y hy
    show |(y : ℤ)| ≤ 12288; rw [abs_of_nonneg (Int.natCast_nonneg y)]; omega
  have hl' : (hm.map Int.ofNat).length = 2 ^ (s + 1) := by rw [List.length_map, hl]
  have A := fft_ap s hs _ (hm.map Int.ofNat) 12288 (inRange_of _ (by norm_num) (by norm_num)) (toFpr_holds _ _ hl' 12288 (by norm_num) (by norm_num) hb) fun j _ => by exact_mod_cast getD_bound _ 12288 (by norm_num) hb j
  have t1 : (2 : ℝ) ^ (s + 1) * 12288 ≤ 2 ^ 10 * 12288 := mul_le_mul_of_nonneg_right (pow_le_pow_right₀ (by norm_num) (by omega)) (by norm_num)
  intro p hp
  have c := (A.2.2.1 p hp).2
  have n := (A.2.2.2 p hp).trans t1
  have s9 : (s : ℝ) ≤ 9 := by exact_mod_cast hs
  have u0 := uu_pos
  have m1 : 8 * (s : ℝ) * (uu * (2 ^ (s + 1) * 12288)) ≤ 8 * 9 * (uu * (2 ^ 10 * 12288)) := mul_le_mul (by linarith) (mul_le_mul_of_nonneg_left t1 u0.le) (by positivity) (by norm_num)
  have c2 := c.trans m1
  have := norm_add_le (cv (slot (fft (toFpr (hm.map Int.ofNat) (s + 1)) (s + 1)) (2 ^ s) p) - value (s + 1) (hm.map Int.ofNat) (root (s + 1) p)) (value (s + 1) (hm.map Int.ofNat) (root (s + 1) p))
  rw [sub_add_cancel] at this
  refine this.trans ((add_le_add c2 n).trans ?_)
  unfold uu
  norm_num

/-- One slot of a target: a product with a constant of size `1/q`. -/
theorem target_slot (h b : C) (x : W) (hh : ‖cv h‖ ≤ 2 ^ 24) (hb : ‖cv b‖ ≤ 2 ^ 17 + 1) (hx : |val x| ≤ 1 / 2 ^ 13) :
    Weak (mul (cMul h b).1 x, mul (cMul h b).2 x) ∧ ‖cv (mul (cMul h b).1 x, mul (cMul h b).2 x)‖ ≤ 2 ^ 29 + 2 ^ 20 := by
  have u0 := uu_pos
  have un := uu_num
  have e0 := eta_pos
  have et : eta ≤ uu := eta_tiny.trans (by have := mul_le_mul_of_nonneg_left (show (1 : ℝ) / 2 ^ 100 ≤ 1 by norm_num) u0.le; linarith)
  have nhb : ‖cv h‖ * ‖cv b‖ ≤ 2 ^ 24 * (2 ^ 17 + 1) := mul_le_mul hh hb (norm_nonneg _) (by norm_num)
  obtain ⟨_, cm⟩ := cMul_close h b (big_le _ (nhb.trans (by norm_num)))
  generalize cMul h b = y at *
  have ny : ‖cv y‖ ≤ 2 ^ 41 + 2 ^ 25 := by
    have := norm_add_le (cv y - cv h * cv b) (cv h * cv b)
    rw [sub_add_cancel, norm_mul] at this
    have k := mul_le_mul_of_nonneg_left nhb u0.le
    rw [un] at k cm et
    norm_num at *
    linarith
  have part : ∀ w : W, |val w| ≤ 2 ^ 41 + 2 ^ 25 → Ok (mul w x) ∧ |val (mul w x)| ≤ 2 ^ 28 + 2 ^ 19 := fun w hw => by
    have b : |val w * val x| ≤ 2 ^ 28 + 2 ^ 12 := by
      rw [abs_mul]; exact (mul_le_mul hw hx (abs_nonneg _) (by norm_num)).trans (by norm_num)
    obtain ⟨o, c⟩ := rd _ _ (C99_mul w x) (b.trans (by norm_num))
    refine ⟨o, ?_⟩
    have := abs_add_le (val (mul w x) - val w * val x) (val w * val x)
    rw [sub_add_cancel] at this
    have k := mul_le_mul_of_nonneg_left b u0.le
    rw [un] at k c et
    norm_num at *
    linarith
  obtain ⟨o1, b1⟩ := part y.1 ((Complex.abs_re_le_norm (cv y)).trans ny)
  obtain ⟨o2, b2⟩ := part y.2 ((Complex.abs_im_le_norm (cv y)).trans ny)
  refine ⟨⟨o1.1, o2.1⟩, (norm_le_parts _).trans ?_⟩
  show |val (mul y.1 x)| + |val (mul y.2 x)| ≤ _
  norm_num at *
  linarith

/-- The constant `1/q`. -/
theorem invq_small : |val inverseOfQ| ≤ 1 / 2 ^ 13 ∧ |val (neg inverseOfQ)| ≤ 1 / 2 ^ 13 := by
  have e : val inverseOfQ = _ := val_word inverseOfQ 0 1009 1500711243720578 (fields_dec _ _ _ _ (by decide)) (by norm_num)
  rw [(C99_neg _).1, abs_neg, e]
  norm_num [abs_of_nonneg]

/-- The targets of a key. -/
theorem target_slots (s : ℕ) (hs : s ≤ 9) (f g F G : List ℤ) (lf : f.length = 2 ^ (s + 1)) (lF : F.length = 2 ^ (s + 1)) (hf : Within (2 ^ (maxFgBits[s + 1]! - 1) - 1) f) (hF : Within 127 F)
    (hm : List ℕ) (hl : hm.length = 2 ^ (s + 1)) (hq : ∀ x ∈ hm, x < 12289) (p : ℕ) (hp : p < 2 ^ s) :
    (Weak (slot (target (basis f g F G (s + 1)) hm (s + 1)).1 (2 ^ s) p) ∧ ‖cv (slot (target (basis f g F G (s + 1)) hm (s + 1)).1 (2 ^ s) p)‖ ≤ 2 ^ 29 + 2 ^ 20) ∧
    (Weak (slot (target (basis f g F G (s + 1)) hm (s + 1)).2 (2 ^ s) p) ∧ ‖cv (slot (target (basis f g F G (s + 1)) hm (s + 1)).2 (2 ^ s) p)‖ ≤ 2 ^ 29 + 2 ^ 20) := by
  obtain ⟨F1, F2⟩ := fft_small s hs f lf hf p hp
  obtain ⟨B1, B2⟩ := fft_big s hs F lF hF p hp
  have H := fft_point s hs hm hl hq p hp
  unfold target basis
  dsimp only
  rw [mulconst_slot s _ _ p hp, mulconst_slot s _ _ p hp, polyMul_slot s _ _ p hp, polyMul_slot s _ _ p hp, (polyNeg_slot s _).2 p hp, (polyNeg_slot s _).2 p hp]
  generalize slot (fft (toFpr f (s + 1)) (s + 1)) (2 ^ s) p = f' at *
  generalize slot (fft (toFpr F (s + 1)) (s + 1)) (2 ^ s) p = F' at *
  generalize value (s + 1) f (root (s + 1) p) = vf at *
  generalize value (s + 1) F (root (s + 1) p) = vF at *
  refine ⟨target_slot _ _ _ H ?_ invq_small.1, target_slot _ _ _ H ?_ invq_small.2⟩
  · rw [neg_cv, norm_neg]
    have := norm_add_le (cv F' - vF) vF
    rw [sub_add_cancel] at this
    norm_num at *; linarith
  · rw [neg_cv, norm_neg]
    have := norm_add_le (cv f' - vf) vf
    rw [sub_add_cancel] at this
    norm_num at *; linarith

/-- The target of the first half at the root. -/
theorem root_first (t0 t1 z1 L : C) (γ d : ℝ) (w0 : Weak t0) (w1 : Weak t1) (wz : Weak z1) (b0 : ‖cv t0‖ ≤ 2 ^ 29 + 2 ^ 20) (b1 : ‖cv t1‖ ≤ 2 ^ 29 + 2 ^ 20) (γ17 : 17 ≤ γ) (hL : ‖cv L‖ ^ 2 * γ ≤ 12 / 10 * (344 * 10 ^ 8))
    (d17 : 17 ≤ d) (hd : 99 / 100 * (12289 ^ 2 / γ) ≤ d) (e1 : d * ‖cv t1 - cv z1‖ ^ 2 ≤ 5 ^ 9 * (800 * 16823)) :
    Weak (cAdd t0 (cMul L (cSub t1 z1))) ∧ ‖cv (cAdd t0 (cMul L (cSub t1 z1)))‖ ≤ 2 ^ 29 + 2 ^ 28 := by
  have u0 := uu_pos
  have un := uu_num
  have e0 := eta_pos
  have et : eta ≤ uu := eta_tiny.trans (by have := mul_le_mul_of_nonneg_left (show (1 : ℝ) / 2 ^ 100 ≤ 1 by norm_num) u0.le; linarith)
  have γ0 : 0 < γ := by linarith
  obtain ⟨ε, hε⟩ : ∃ ε, cv t1 - cv z1 = ε := ⟨_, rfl⟩
  rw [hε] at e1
  have E1 : ‖ε‖ ≤ 2 ^ 21 := by
    rw [← abs_of_nonneg (norm_nonneg ε), ← abs_of_nonneg (show (0 : ℝ) ≤ 2 ^ 21 by positivity), ← sq_le_sq]
    have := mul_le_mul_of_nonneg_right d17 (sq_nonneg ‖ε‖)
    norm_num at e1 ⊢; linarith
  have L1 : ‖cv L‖ ≤ 2 ^ 16 := by
    rw [← abs_of_nonneg (norm_nonneg (cv L)), ← abs_of_nonneg (show (0 : ℝ) ≤ 2 ^ 16 by positivity), ← sq_le_sq]
    have := mul_le_mul_of_nonneg_left γ17 (sq_nonneg ‖cv L‖)
    norm_num at hL ⊢; linarith
  have LE : ‖cv L‖ * ‖ε‖ ≤ 2 ^ 27 := by
    rw [← abs_of_nonneg (show 0 ≤ ‖cv L‖ * ‖ε‖ by positivity), ← abs_of_nonneg (show (0 : ℝ) ≤ 2 ^ 27 by positivity), ← sq_le_sq, mul_pow]
    have m1 := mul_le_mul_of_nonneg_right hd (sq_nonneg ‖ε‖)
    have m2 : 99 / 100 * (12289 ^ 2) * ‖ε‖ ^ 2 ≤ 5 ^ 9 * (800 * 16823) * γ := by
      have := mul_le_mul_of_nonneg_right (m1.trans e1) γ0.le
      rwa [show 99 / 100 * (12289 ^ 2 / γ) * ‖ε‖ ^ 2 * γ = 99 / 100 * (12289 ^ 2) * ‖ε‖ ^ 2 by field_simp] at this
    have m3 := mul_le_mul_of_nonneg_left m2 (sq_nonneg ‖cv L‖)
    have m4 := mul_le_mul_of_nonneg_left hL (show (0 : ℝ) ≤ 5 ^ 9 * (800 * 16823) by norm_num)
    norm_num at m3 m4 ⊢
    linarith
  have nz : ‖cv z1‖ ≤ 2 ^ 30 := by
    have := norm_sub_le (cv t1) (cv t1 - cv z1)
    rw [sub_sub_cancel, hε] at this
    norm_num at b1 E1 ⊢; linarith
  obtain ⟨gs, cs⟩ := wSub_close t1 z1 w1 wz (b1.trans (by norm_num)) (nz.trans (by norm_num))
  rw [hε] at cs
  generalize cSub t1 z1 = x at *
  have cs' : ‖cv x - ε‖ ≤ 1 / 2 ^ 18 := by
    have := mul_le_mul_of_nonneg_left E1 u0.le
    rw [un] at cs this et; norm_num at cs this et ⊢; linarith
  have nx : ‖cv x‖ ≤ 2 ^ 21 + 1 := by
    have := norm_add_le (cv x - ε) ε
    rw [sub_add_cancel] at this
    norm_num at cs' E1 ⊢; linarith
  have nLx : ‖cv L‖ * ‖cv x‖ ≤ 2 ^ 16 * (2 ^ 21 + 1) := mul_le_mul L1 nx (norm_nonneg _) (by norm_num)
  have nLx2 : ‖cv L‖ * ‖cv x‖ ≤ 2 ^ 27 + 1 := by
    have h : ‖cv x‖ ≤ ‖ε‖ + 1 / 2 ^ 18 := by
      have := norm_add_le (cv x - ε) ε
      rw [sub_add_cancel] at this
      linarith
    have m := mul_le_mul_of_nonneg_left h (norm_nonneg (cv L))
    have m2 := mul_le_mul_of_nonneg_right L1 (show (0 : ℝ) ≤ 1 / 2 ^ 18 by norm_num)
    rw [mul_add] at m
    norm_num at m m2 LE ⊢; linarith
  obtain ⟨gy, cy⟩ := cMul_close L x (big_le _ (nLx.trans (by norm_num)))
  generalize cMul L x = y at *
  have ny : ‖cv y‖ ≤ 2 ^ 27 + 2 := by
    have := norm_add_le (cv y - cv L * cv x) (cv L * cv x)
    rw [sub_add_cancel, norm_mul] at this
    have k := mul_le_mul_of_nonneg_left nLx u0.le
    rw [un] at k cy et
    norm_num at k cy et this nLx2 ⊢
    linarith
  obtain ⟨gt, ct⟩ := wAdd_close t0 y w0 gy.weak (b0.trans (by norm_num)) (ny.trans (by norm_num))
  refine ⟨gt.weak, ?_⟩
  have nty : ‖cv t0 + cv y‖ ≤ 2 ^ 29 + 2 ^ 20 + (2 ^ 27 + 2) := (norm_add_le _ _).trans (add_le_add b0 ny)
  have := norm_add_le (cv (cAdd t0 y) - (cv t0 + cv y)) (cv t0 + cv y)
  rw [sub_add_cancel] at this
  have k := mul_le_mul_of_nonneg_left nty u0.le
  rw [un] at k ct et
  norm_num at k ct et nty this ⊢
  linarith

end Verif.CRef.Fft
