import Verif.CRef.TreeLeaf
import Verif.CRef.FftInt

/-! # The root of the sampling tree: Gram matrix and LDL decomposition in one slot -/

namespace Verif.CRef.Fft

open Verif.CRef.Fpr Verif.CRef.Orth Verif.CRef.SignDyn

theorem norm_sq_cv (z : C) : ‖cv z‖ ^ 2 = val z.1 ^ 2 + val z.2 ^ 2 := by
  rw [← Complex.normSq_eq_norm_sq]; unfold cv; rw [Complex.normSq_mk]; ring

/-- `|a|² + |b|²`. -/
def sum4 (a b : C) : W := add (add (sqr a.1) (sqr a.2)) (add (sqr b.1) (sqr b.2))

theorem sum4_close (a b : C) (D : ℝ) (hD : D = ‖cv a‖ ^ 2 + ‖cv b‖ ^ 2) (h1 : 1 / 2 ^ 42 ≤ D) (h2 : D ≤ 2 ^ 58) : Ok (sum4 a b) ∧ |val (sum4 a b) - D| ≤ 6 * uu * D := by
  have u0 := uu_pos
  have e0 := eta_pos
  have et := eta_tiny
  rw [norm_sq_cv, norm_sq_cv] at hD
  have p1 := sq_nonneg (val a.1)
  have p2 := sq_nonneg (val a.2)
  have p3 := sq_nonneg (val b.1)
  have p4 := sq_nonneg (val b.2)
  have sq : ∀ x : W, val x ^ 2 ≤ D → Ok (sqr x) ∧ |val (sqr x) - val x ^ 2| ≤ 1 * (uu * val x ^ 2) + 1 * eta := fun x hx => by
    rw [one_mul, one_mul]; exact sq_close x (hx.trans (h2.trans (by norm_num)))
  have bd : ∀ x : ℝ, x ≤ D → x ≤ 2 ^ 60 := fun x hx => hx.trans (h2.trans (by norm_num))
  have A := add_pos_close _ _ _ _ 1 1 p1 p2 (bd _ (by linarith)) (bd _ (by linarith)) (by norm_num) (by norm_num) (by norm_num) (by norm_num) (sq a.1 (by linarith)) (sq a.2 (by linarith))
  have B := add_pos_close _ _ _ _ 1 1 p3 p4 (bd _ (by linarith)) (bd _ (by linarith)) (by norm_num) (by norm_num) (by norm_num) (by norm_num) (sq b.1 (by linarith)) (sq b.2 (by linarith))
  have S := add_pos_close _ _ _ _ (1 + 2) (2 * 1 + 2) (add_nonneg p1 p2) (add_nonneg p3 p4) (bd _ (by linarith)) (bd _ (by linarith)) (by norm_num) (by norm_num) (by norm_num) (by norm_num) A B
  unfold sum4
  generalize add (add (sqr a.1) (sqr a.2)) (add (sqr b.1) (sqr b.2)) = w at *
  rw [show val a.1 ^ 2 + val a.2 ^ 2 + (val b.1 ^ 2 + val b.2 ^ 2) = D by rw [hD]] at S
  refine ⟨S.1, S.2.trans ?_⟩
  have : uu * (1 / 2 ^ 42) ≤ uu * D := mul_le_mul_of_nonneg_left h1 u0.le
  norm_num at *
  linarith

/-- The determinant identity. -/
theorem gram_det (P Q U V : ℂ) : (‖P‖ ^ 2 + ‖Q‖ ^ 2) * (‖U‖ ^ 2 + ‖V‖ ^ 2) - ‖Q * (starRingEnd ℂ) V + P * (starRingEnd ℂ) U‖ ^ 2 = ‖P * V - Q * U‖ ^ 2 := by
  simp only [← Complex.normSq_eq_norm_sq, Complex.normSq_apply, Complex.add_re, Complex.add_im, Complex.sub_re, Complex.sub_im, Complex.mul_re, Complex.mul_im, Complex.conj_re, Complex.conj_im]
  ring

/-- The off-diagonal element. -/
def off (P Q U V : C) : C := cAdd (cMul Q (V.1, neg V.2)) (cMul P (U.1, neg U.2))

theorem off_close (P Q U V : C) (a d : ℝ) (ha : a = ‖cv P‖ ^ 2 + ‖cv Q‖ ^ 2) (hd : d = ‖cv U‖ ^ 2 + ‖cv V‖ ^ 2) (N : ℝ) (hN : 0 ≤ N) (hN2 : N ^ 2 = a * d) (h1 : 1 ≤ N) (h2 : N ≤ 2 ^ 40) :
    ‖cv (off P Q U V) - (cv Q * (starRingEnd ℂ) (cv V) + cv P * (starRingEnd ℂ) (cv U))‖ ≤ 8 * uu * N ∧ ‖cv Q * (starRingEnd ℂ) (cv V) + cv P * (starRingEnd ℂ) (cv U)‖ ≤ N := by
  have u0 := uu_pos
  have e0 := eta_pos
  have et := eta_tiny
  have un := uu_num
  have et2 : eta ≤ uu * (1 / 1000) := et.trans (mul_le_mul_of_nonneg_left (by norm_num) u0.le)
  have cs : ‖cv Q‖ * ‖cv V‖ + ‖cv P‖ * ‖cv U‖ ≤ N := by
    rw [← abs_of_nonneg hN, ← abs_of_nonneg (show 0 ≤ ‖cv Q‖ * ‖cv V‖ + ‖cv P‖ * ‖cv U‖ by positivity), ← sq_le_sq, hN2, ha, hd]
    nlinarith [sq_nonneg (‖cv P‖ * ‖cv V‖ - ‖cv Q‖ * ‖cv U‖)]
  have q0 : 0 ≤ ‖cv Q‖ * ‖cv V‖ := by positivity
  have p0 : 0 ≤ ‖cv P‖ * ‖cv U‖ := by positivity
  have nv : ‖cv (V.1, neg V.2)‖ = ‖cv V‖ := by rw [conj_cv, RCLike.norm_conj]
  have nu : ‖cv (U.1, neg U.2)‖ = ‖cv U‖ := by rw [conj_cv, RCLike.norm_conj]
  have bg : ∀ x : ℝ, x ≤ N → x ≤ big := fun x hx => big_le _ (hx.trans (h2.trans (by norm_num)))
  obtain ⟨g1, c1⟩ := cMul_close Q (V.1, neg V.2) (by rw [nv]; exact bg _ (by linarith))
  obtain ⟨g2, c2⟩ := cMul_close P (U.1, neg U.2) (by rw [nu]; exact bg _ (by linarith))
  rw [nv, conj_cv] at c1
  rw [nu, conj_cv] at c2
  unfold off
  generalize cMul Q (V.1, neg V.2) = x at *
  generalize cMul P (U.1, neg U.2) = y at *
  have nx : ‖cv Q * (starRingEnd ℂ) (cv V)‖ = ‖cv Q‖ * ‖cv V‖ := by rw [norm_mul, RCLike.norm_conj]
  have ny : ‖cv P * (starRingEnd ℂ) (cv U)‖ = ‖cv P‖ * ‖cv U‖ := by rw [norm_mul, RCLike.norm_conj]
  generalize cv Q * (starRingEnd ℂ) (cv V) = X at *
  generalize cv P * (starRingEnd ℂ) (cv U) = Y at *
  generalize ‖cv Q‖ * ‖cv V‖ = q at *
  generalize ‖cv P‖ * ‖cv U‖ = p at *
  have uN : uu * N ≤ N / 1000 := by rw [un]; norm_num; linarith
  have uN1 : uu * 1 ≤ uu * N := mul_le_mul_of_nonneg_left h1 u0.le
  have us : uu * (q + p) ≤ uu * N := mul_le_mul_of_nonneg_left cs u0.le
  have nXY : ‖X + Y‖ ≤ N := (norm_add_le _ _).trans (by linarith)
  have bx : ‖cv x‖ ≤ 2 * N := by
    have := norm_add_le (cv x - X) X
    rw [sub_add_cancel] at this
    have : 0 ≤ uu * p := by positivity
    linarith
  have bY : ‖cv y‖ ≤ 2 * N := by
    have := norm_add_le (cv y - Y) Y
    rw [sub_add_cancel] at this
    have : 0 ≤ uu * q := by positivity
    linarith
  obtain ⟨_, c3⟩ := wAdd_close x y g1.weak g2.weak (by norm_num at *; linarith) (by norm_num at *; linarith)
  refine ⟨?_, nXY⟩
  have e : cv (cAdd x y) - (X + Y) = (cv (cAdd x y) - (cv x + cv y)) + ((cv x - X) + (cv y - Y)) := by ring
  have dxy : ‖cv x - X + (cv y - Y)‖ ≤ 5 * (uu * N) + 16 * eta := (norm_add_le _ _).trans (by linarith)
  have nxy : ‖cv x + cv y‖ ≤ N + (5 * (uu * N) + 16 * eta) := by
    have := norm_add_le ((cv x - X) + (cv y - Y)) (X + Y)
    rw [show cv x - X + (cv y - Y) + (X + Y) = cv x + cv y by ring] at this
    linarith
  rw [e]
  refine (norm_add_le _ _).trans ?_
  have k := mul_le_mul_of_nonneg_left nxy u0.le
  have k2 : uu * (5 * (uu * N) + 16 * eta) ≤ uu * (N / 100) := mul_le_mul_of_nonneg_left (by
    have : 16 * eta ≤ uu * N := by linarith
    linarith) u0.le
  linarith

/-- The diagonal of the LDL decomposition of the Gram matrix in one slot. -/
theorem root_slot (P Q U V : C) (a d Δ : ℝ) (ha : a = ‖cv P‖ ^ 2 + ‖cv Q‖ ^ 2) (hd : d = ‖cv U‖ ^ 2 + ‖cv V‖ ^ 2) (hΔ : Δ = ‖cv P * cv V - cv Q * cv U‖) (a1 : 4 ≤ a) (a2 : a ≤ 2 ^ 26) (d2 : d ≤ 2 ^ 36)
    (hΔ1 : 2 ^ 13 ≤ Δ) (A B D : C) (hA : A = (sum4 P Q, add 0 0)) (hB : B = off P Q U V) (hD : D = cSub (sum4 U V, add 0 0) (cMul (cDiv B A) (B.1, neg B.2))) :
    Weak A ∧ |val A.1 - a| ≤ 6 * uu * a ∧ val A.2 = 0 ∧ Weak D ∧ |val D.1 - Δ ^ 2 / a| ≤ 60 * uu * d ∧ |val D.2| ≤ 60 * uu * d := by
  have u0 := uu_pos
  have un := uu_num
  have a0 : 0 < a := by linarith
  have det := gram_det (cv P) (cv Q) (cv U) (cv V)
  rw [← ha, ← hd, ← hΔ] at det
  have d0 : 0 ≤ d := by rw [hd]; positivity
  obtain ⟨x, hx⟩ : ∃ x, cv Q * (starRingEnd ℂ) (cv V) + cv P * (starRingEnd ℂ) (cv U) = x := ⟨_, rfl⟩
  rw [hx] at det
  have ad : (2 ^ 13) ^ 2 ≤ a * d := by
    have := pow_le_pow_left₀ (by norm_num) hΔ1 2
    have := sq_nonneg ‖x‖
    linarith
  have d1 : 1 ≤ d := by
    by_contra hn
    push Not at hn
    have : a * d ≤ 2 ^ 26 * d := mul_le_mul_of_nonneg_right a2 d0
    have : (2 : ℝ) ^ 26 * d < 2 ^ 26 := by linarith
    norm_num at *
    linarith
  obtain ⟨N, hN⟩ : ∃ N, Real.sqrt (a * d) = N := ⟨_, rfl⟩
  have N0 : 0 ≤ N := hN ▸ Real.sqrt_nonneg _
  have NN : N ^ 2 = a * d := by rw [← hN]; exact Real.sq_sqrt (by positivity)
  have N1 : 1 ≤ N := by nlinarith
  have N3 : N ≤ 2 ^ 31 := by
    rw [← abs_of_nonneg N0, ← abs_of_nonneg (show (0 : ℝ) ≤ 2 ^ 31 by positivity), ← sq_le_sq, NN]
    exact (mul_le_mul a2 d2 d0 (by positivity)).trans (by norm_num)
  have N2 : N ≤ 2 ^ 40 := N3.trans (by norm_num)
  obtain ⟨cB, nx⟩ := off_close P Q U V a d ha hd N N0 NN N1 N2
  rw [hx] at cB nx
  rw [← hB] at cB
  obtain ⟨oA, cA⟩ := sum4_close P Q a ha (le_trans (by norm_num) a1) (a2.trans (by norm_num))
  obtain ⟨oD, cd⟩ := sum4_close U V d hd (le_trans (by norm_num) d1) (d2.trans (by norm_num))
  have z0 : Ok (add 0 0) ∧ val (add 0 0) = 0 := by
    have v0 : val (0 : W) = 0 := val_eq_zero 0 (by unfold expo; rfl)
    have := (C99_add 0 0 (by unfold Ok expo mant; decide) (by unfold Ok expo mant; decide)).1
    rw [v0, add_zero, abs_zero] at this
    exact this (by positivity)
  have cA' : cv A = ((val A.1 : ℝ) : ℂ) := by
    rw [hA]; unfold cv; apply Complex.ext
    · rfl
    · rw [Complex.ofReal_im]; dsimp only; exact z0.2
  have eA : val A.1 = val (sum4 P Q) := by rw [hA]
  rw [← eA] at cA
  have ua : 6 * uu * a ≤ a / 1000 := by rw [un]; norm_num; linarith
  obtain ⟨k1, k2⟩ := abs_le.1 cA
  obtain ⟨α, hα⟩ : ∃ α, val A.1 = α := ⟨_, rfl⟩
  rw [hα] at cA cA' k1 k2
  have α0 : 0 < α := by linarith
  have nA : ‖cv A‖ = α := by rw [cA', Complex.norm_real, Real.norm_eq_abs, abs_of_pos α0]
  obtain ⟨Cc, hC⟩ : ∃ c : C, (sum4 U V, add 0 0) = c := ⟨_, rfl⟩
  have cC' : cv Cc = ((val Cc.1 : ℝ) : ℂ) := by
    rw [← hC]; unfold cv; apply Complex.ext
    · rfl
    · rw [Complex.ofReal_im]; dsimp only; exact z0.2
  have eC : val (sum4 U V) = val Cc.1 := by rw [← hC]
  rw [eC] at cd
  obtain ⟨γ, hγ⟩ : ∃ γ, val Cc.1 = γ := ⟨_, rfl⟩
  rw [hγ] at cd cC'
  have ud : 6 * uu * d ≤ d / 1000 := by rw [un]; norm_num; linarith
  obtain ⟨l1, l2⟩ := abs_le.1 cd
  have γ0 : 0 < γ := by linarith
  have nC : ‖cv Cc‖ = γ := by rw [cC', Complex.norm_real, Real.norm_eq_abs, abs_of_pos γ0]
  have wC : Weak Cc := by rw [← hC]; exact ⟨oD.1, z0.1.1⟩
  have uN : 8 * uu * N ≤ N / 1000 := by rw [un]; norm_num; linarith
  obtain ⟨β, hβ⟩ : ∃ β, ‖cv B‖ = β := ⟨_, rfl⟩
  have β0 : 0 ≤ β := hβ ▸ norm_nonneg _
  have dβ : |β - ‖x‖| ≤ 8 * uu * N := by rw [← hβ]; exact (abs_norm_sub_norm_le _ _).trans cB
  obtain ⟨j1, j2⟩ := abs_le.1 dβ
  have βN : β ≤ 1001 / 1000 * N := by linarith
  rw [hC] at hD
  obtain ⟨gD, cD⟩ := ldl_close A B Cc wC (by rw [nA]; linarith) (by rw [nA]; norm_num at *; linarith) (by rw [hβ]; exact βN.trans (by norm_num at N3 ⊢; linarith)) (by rw [nC]; norm_num at *; linarith)
  rw [← hD] at gD cD
  rw [nA, nC, hβ] at cD
  have x0 := norm_nonneg x
  -- the quotient
  have βsq : β ^ 2 / α ≤ 101 / 100 * d := by
    rw [div_le_iff₀ α0]
    have := pow_le_pow_left₀ β0 βN 2
    rw [mul_pow, NN] at this
    have t : 999 / 1000 * a ≤ α := by linarith
    have t2 := mul_le_mul_of_nonneg_left t d0
    have p : 0 ≤ a * d := by positivity
    refine this.trans ?_
    rw [show 101 / 100 * d * α = 101 / 100 * (d * α) by ring]
    norm_num
    linarith
  have dq : |β ^ 2 / α - ‖x‖ ^ 2 / a| ≤ 23 * uu * d := by
    have e : β ^ 2 / α - ‖x‖ ^ 2 / a = (β ^ 2 - ‖x‖ ^ 2) / α + ‖x‖ ^ 2 / a * ((a - α) / α) := by field_simp; ring
    rw [e]
    refine (abs_add_le _ _).trans ?_
    have s1 : |(β ^ 2 - ‖x‖ ^ 2) / α| ≤ 165 / 10 * uu * d := by
      rw [abs_div, abs_of_pos α0, div_le_iff₀ α0, show β ^ 2 - ‖x‖ ^ 2 = (β - ‖x‖) * (β + ‖x‖) by ring, abs_mul, abs_of_nonneg (show 0 ≤ β + ‖x‖ by positivity)]
      refine (mul_le_mul dβ (show β + ‖x‖ ≤ 2001 / 1000 * N by linarith) (by positivity) (by positivity)).trans ?_
      rw [show 8 * uu * N * (2001 / 1000 * N) = 8 * (2001 / 1000) * uu * (N ^ 2) by ring, NN]
      have t : 999 / 1000 * a ≤ α := by linarith
      have t2 := mul_le_mul_of_nonneg_left t (show 0 ≤ uu * d by positivity)
      have p : 0 ≤ uu * d * a := by positivity
      rw [show 8 * (2001 / 1000) * uu * (a * d) = 8 * (2001 / 1000) * (uu * d * a) by ring, show 165 / 10 * uu * d * α = 165 / 10 * (uu * d * α) by ring]
      linarith
    have s2 : |‖x‖ ^ 2 / a * ((a - α) / α)| ≤ 65 / 10 * uu * d := by
      rw [abs_mul, abs_of_nonneg (show 0 ≤ ‖x‖ ^ 2 / a by positivity), abs_div, abs_of_pos α0, abs_sub_comm]
      have t1 : ‖x‖ ^ 2 / a ≤ d := by
        rw [div_le_iff₀ a0]
        have := pow_le_pow_left₀ x0 nx 2
        rw [NN] at this; linarith
      have t2 : |α - a| / α ≤ 65 / 10 * uu := by
        rw [div_le_iff₀ α0]
        refine cA.trans ?_
        have t : 999 / 1000 * a ≤ α := by linarith
        have t2 := mul_le_mul_of_nonneg_left t u0.le
        have p : 0 ≤ uu * a := by positivity
        linarith
      calc _ ≤ d * (65 / 10 * uu) := mul_le_mul t1 t2 (by positivity) d0
        _ = _ := by ring
    linarith
  have ex : d - ‖x‖ ^ 2 / a = Δ ^ 2 / a := by rw [← det]; field_simp
  have main : ‖cv D - ((Δ ^ 2 / a : ℝ) : ℂ)‖ ≤ 60 * uu * d := by
    have e : cv D - ((Δ ^ 2 / a : ℝ) : ℂ) = (cv D - (cv Cc - (β : ℂ) ^ 2 / cv A)) + (((γ - d) - (β ^ 2 / α - ‖x‖ ^ 2 / a) : ℝ) : ℂ) := by
      rw [← ex, cC', cA']; push_cast; ring
    rw [e]
    refine (norm_add_le _ _).trans ?_
    rw [Complex.norm_real, Real.norm_eq_abs]
    have m1 := abs_sub (γ - d) (β ^ 2 / α - ‖x‖ ^ 2 / a)
    have m2 := mul_le_mul_of_nonneg_left βsq u0.le
    have m3 := mul_le_mul_of_nonneg_left (show γ ≤ 1001 / 1000 * d by linarith) u0.le
    have m4 := mul_le_mul_of_nonneg_left d1 u0.le
    linarith
  refine ⟨by rw [hA]; exact ⟨oA.1, z0.1.1⟩, by rw [hα]; exact cA, by rw [hA]; exact z0.2, gD.weak, ?_, ?_⟩
  · exact (Complex.abs_re_le_norm (cv D - ((Δ ^ 2 / a : ℝ) : ℂ))).trans main
  · have := (Complex.abs_im_le_norm (cv D - ((Δ ^ 2 / a : ℝ) : ℂ))).trans main
    rwa [Complex.sub_im, Complex.ofReal_im, sub_zero] at this

end Verif.CRef.Fft
