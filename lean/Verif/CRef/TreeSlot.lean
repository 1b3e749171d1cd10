import Verif.CRef.TreeErr

/-! # One slot of a node of the sampling tree: the diagonal element of a node is split into (almost) the arithmetic and the harmonic mean of two slots -/

namespace Verif.CRef.Fft

open Verif.CRef.Fpr Verif.CRef.Orth

/-- Exact arithmetic: `S - |T|²/S` for slots with small imaginary parts. -/
theorem node_exact (r0 r1 i0 i1 m E α β τ : ℝ) (m0 : 0 < m) (h0 : m ≤ r0) (h1 : m ≤ r1) (E0 : 0 ≤ E) (hE : E ≤ m) (k0 : |i0| ≤ E) (k1 : |i1| ≤ E)
    (hα : α = (r0 + r1) / 2) (hβ : β = (i0 + i1) / 2) (hτ : τ = ((r0 - r1) ^ 2 + (i0 - i1) ^ 2) / 4) :
    τ ≤ α ^ 2 ∧ |(α - τ * α / (α ^ 2 + β ^ 2)) - r0 * r1 / α| ≤ E ^ 2 / α ∧ |β + τ * β / (α ^ 2 + β ^ 2)| ≤ 2 * E := by
  obtain ⟨a1, a2⟩ := abs_le.1 k0
  obtain ⟨b1, b2⟩ := abs_le.1 k1
  have α0 : 0 < α := by rw [hα]; linarith
  have N0 : 0 < α ^ 2 + β ^ 2 := by positivity
  have hβ2 : β ^ 2 ≤ E ^ 2 := sq_le_sq' (by rw [hβ]; linarith) (by rw [hβ]; linarith)
  have hδ : (i0 - i1) ^ 2 / 4 ≤ E ^ 2 := by nlinarith
  have hm : α ^ 2 - (r0 - r1) ^ 2 / 4 = r0 * r1 := by rw [hα]; ring
  have hmm : m ^ 2 ≤ r0 * r1 := by nlinarith
  have t1 : τ ≤ α ^ 2 := by rw [hτ]; nlinarith
  have t0 : 0 ≤ τ := by rw [hτ]; positivity
  refine ⟨t1, ?_, ?_⟩
  · have e : (α - τ * α / (α ^ 2 + β ^ 2)) - r0 * r1 / α = ((r0 - r1) ^ 2 / 4 * β ^ 2 - (i0 - i1) ^ 2 / 4 * α ^ 2) / (α * (α ^ 2 + β ^ 2)) := by
      rw [← hm, hτ]; field_simp; ring
    rw [e, abs_div, abs_of_pos (show 0 < α * (α ^ 2 + β ^ 2) by positivity), div_le_div_iff₀ (by positivity) α0]
    have q1 : (r0 - r1) ^ 2 / 4 ≤ α ^ 2 := by nlinarith
    have p1 : 0 ≤ (r0 - r1) ^ 2 / 4 * β ^ 2 := by positivity
    have p2 : 0 ≤ (i0 - i1) ^ 2 / 4 * α ^ 2 := by positivity
    have s1 : (r0 - r1) ^ 2 / 4 * β ^ 2 ≤ α ^ 2 * E ^ 2 := mul_le_mul q1 hβ2 (by positivity) (by positivity)
    have s2 : (i0 - i1) ^ 2 / 4 * α ^ 2 ≤ E ^ 2 * α ^ 2 := mul_le_mul_of_nonneg_right hδ (by positivity)
    have : |(r0 - r1) ^ 2 / 4 * β ^ 2 - (i0 - i1) ^ 2 / 4 * α ^ 2| ≤ E ^ 2 * α ^ 2 := by rw [abs_le]; constructor <;> linarith
    calc _ ≤ E ^ 2 * α ^ 2 * α := mul_le_mul_of_nonneg_right this α0.le
      _ ≤ _ := by
        have : 0 ≤ E ^ 2 * (α * β ^ 2) := by positivity
        linarith
  · have bb : |β| ≤ E := by rw [abs_le, hβ]; constructor <;> linarith
    have e : |τ * β / (α ^ 2 + β ^ 2)| ≤ |β| := by
      rw [abs_div, abs_of_pos N0, abs_mul, abs_of_nonneg t0, div_le_iff₀ N0, mul_comm]
      exact mul_le_mul_of_nonneg_left (by linarith [sq_nonneg β]) (abs_nonneg _)
    refine (abs_add_le _ _).trans (by linarith)

/-- The two halves of `poly_split_fft` in one slot. -/
theorem split_slot (z0 z1 w : C) (s : ℂ) (hs : ‖s‖ = 1) (hw : ‖cv w - (starRingEnd ℂ) s‖ ≤ 4 * uu) (h0 : Weak z0) (h1 : Weak z1) (b0 : ‖cv z0‖ ≤ 2 ^ 40) (b1 : ‖cv z1‖ ≤ 2 ^ 40) :
    Weak (hv (cAdd z0 z1)) ∧ ‖cv (hv (cAdd z0 z1)) - (cv z0 + cv z1) / 2‖ ≤ uu * (2 * (‖cv z0 + cv z1‖ / 2) + 1) ∧
    Weak (hv (cMul (cSub z0 z1) w)) ∧ ‖cv (hv (cMul (cSub z0 z1) w)) - (cv z0 - cv z1) / 2 * (starRingEnd ℂ) s‖ ≤ uu * (12 * (‖cv z0 - cv z1‖ / 2) + 1) := by
  have u0 := uu_pos
  have e0 := eta_pos
  have et := eta_tiny
  have un := uu_num
  have et2 : eta ≤ uu * (1 / 1000) := et.trans (mul_le_mul_of_nonneg_left (by norm_num) u0.le)
  have half2 : ∀ z : ℂ, ‖z / 2‖ = ‖z‖ / 2 := fun z => by rw [norm_div]; norm_num
  obtain ⟨g1, c1⟩ := wAdd_close z0 z1 h0 h1 (b0.trans (by norm_num)) (b1.trans (by norm_num))
  obtain ⟨g2, c2⟩ := wSub_close z0 z1 h0 h1 (b0.trans (by norm_num)) (b1.trans (by norm_num))
  obtain ⟨w1, d1⟩ := hv_close _ g1
  have tri := norm_sub_le (cv z0) (cv z1)
  obtain ⟨Δ, hΔ⟩ : ∃ Δ, ‖cv z0 - cv z1‖ = Δ := ⟨_, rfl⟩
  have Δ0 : 0 ≤ Δ := hΔ ▸ norm_nonneg _
  rw [hΔ] at c2 tri
  have Δb : Δ ≤ 2 ^ 41 := by norm_num at *; linarith
  have usm : uu ≤ 1 / 2 ^ 50 := by rw [un]; norm_num
  generalize cSub z0 z1 = d at *
  have nd : ‖cv d‖ ≤ 1001 / 1000 * Δ + 1 := by
    have := norm_add_le (cv d - (cv z0 - cv z1)) (cv z0 - cv z1)
    rw [sub_add_cancel, hΔ] at this
    have : uu * (2 * Δ) ≤ Δ / 1000 := by rw [un]; norm_num; linarith
    have : eta ≤ 1 / 1000 := et2.trans (by rw [un]; norm_num)
    linarith
  have nd2 : uu * ‖cv d‖ ≤ uu * (1001 / 1000 * Δ + 1 / 1000) := by
    have := norm_add_le (cv d - (cv z0 - cv z1)) (cv z0 - cv z1)
    rw [sub_add_cancel, hΔ] at this
    refine mul_le_mul_of_nonneg_left ?_ u0.le
    have : uu * (2 * Δ) ≤ Δ / 1000 := by rw [un]; norm_num; linarith
    have : eta ≤ 1 / 8000 := et2.trans (by rw [un]; norm_num)
    linarith
  have nw : ‖cv w‖ ≤ 1001 / 1000 := by
    have := norm_add_le (cv w - (starRingEnd ℂ) s) ((starRingEnd ℂ) s)
    rw [sub_add_cancel, RCLike.norm_conj, hs] at this
    have : 4 * uu ≤ 1 / 1000 := by rw [un]; norm_num
    linarith
  have pw : ‖cv d‖ * ‖cv w‖ ≤ ‖cv d‖ * (1001 / 1000) := mul_le_mul_of_nonneg_left nw (norm_nonneg _)
  obtain ⟨g3, c3⟩ := cMul_close d w (big_le _ (by norm_num at *; linarith))
  obtain ⟨w2, d2⟩ := hv_close _ g3
  refine ⟨w1, ?_, w2, ?_⟩
  · have e : cv (hv (cAdd z0 z1)) - (cv z0 + cv z1) / 2 = (cv (hv (cAdd z0 z1)) - cv (cAdd z0 z1) / 2) + (cv (cAdd z0 z1) - (cv z0 + cv z1)) / 2 := by ring
    rw [e]
    refine (norm_add_le _ _).trans ?_
    rw [half2]
    linarith
  · have e : cv (hv (cMul d w)) - (cv z0 - cv z1) / 2 * (starRingEnd ℂ) s =
        (cv (hv (cMul d w)) - cv (cMul d w) / 2) + ((cv (cMul d w) - cv d * cv w) / 2 + (cv d * (cv w - (starRingEnd ℂ) s) / 2 + (cv d - (cv z0 - cv z1)) / 2 * (starRingEnd ℂ) s)) := by ring
    rw [e]
    refine (norm_add_le _ _).trans ((add_le_add_right ((norm_add_le _ _).trans (add_le_add_right (norm_add_le _ _) _)) _).trans ?_)
    rw [half2, half2, norm_mul, norm_mul, half2, RCLike.norm_conj, hs, hΔ]
    have k1 := mul_le_mul_of_nonneg_left hw (norm_nonneg (cv d))
    have k2 := mul_le_mul_of_nonneg_left pw u0.le
    have k3 : 0 ≤ uu * Δ := by positivity
    linarith

set_option maxHeartbeats 1000000 in
/-- The node: with real parts in `[m, M]` and imaginary parts at most `E`, the first half has the arithmetic mean and the LDL element the harmonic mean of the two real parts, up to `E²` and rounding. -/
theorem node_slot (z0 z1 w : C) (s : ℂ) (hs : ‖s‖ = 1) (hw : ‖cv w - (starRingEnd ℂ) s‖ ≤ 4 * uu) (h0 : Weak z0) (h1 : Weak z1) (m M E : ℝ) (hm : 4 ≤ m) (hM : M ≤ 2 ^ 26) (E0 : 0 ≤ E) (hE : E ≤ 1)
    (a0 : m ≤ val z0.1) (a1 : m ≤ val z1.1) (b0 : val z0.1 ≤ M) (b1 : val z1.1 ≤ M) (k0 : |val z0.2| ≤ E) (k1 : |val z1.2| ≤ E) (A B D : C) (hA : A = hv (cAdd z0 z1)) (hB : B = hv (cMul (cSub z0 z1) w))
    (hD : D = cSub A (cMul (cDiv B A) (B.1, neg B.2))) :
    Weak A ∧ Weak D ∧ |val A.1 - (val z0.1 + val z1.1) / 2| ≤ 128 * uu * M ∧ |val A.2| ≤ 2 * E + 128 * uu * M ∧
    |val D.1 - val z0.1 * val z1.1 / ((val z0.1 + val z1.1) / 2)| ≤ E ^ 2 / ((val z0.1 + val z1.1) / 2) + 128 * uu * M ∧ |val D.2| ≤ 2 * E + 128 * uu * M := by
  have u0 := uu_pos
  have un := uu_num
  have M4 : 4 ≤ M := hm.trans (a0.trans b0)
  have zb : ∀ z : C, 0 ≤ val z.1 → val z.1 ≤ M → |val z.2| ≤ E → ‖cv z‖ ≤ M + 1 := fun z p q r => by
    refine (norm_le_parts _).trans ?_
    show |val z.1| + |val z.2| ≤ _
    rw [abs_of_nonneg p]; linarith
  have n0 := zb z0 (by linarith) b0 k0
  have n1 := zb z1 (by linarith) b1 k1
  obtain ⟨wA, cA, wB, cB⟩ := split_slot z0 z1 w s hs hw h0 h1 (by norm_num at *; linarith) (by norm_num at *; linarith)
  rw [← hA] at wA cA
  rw [← hB] at wB cB
  obtain ⟨α, hα⟩ : ∃ α, (val z0.1 + val z1.1) / 2 = α := ⟨_, rfl⟩
  obtain ⟨β, hβ⟩ : ∃ β, (val z0.2 + val z1.2) / 2 = β := ⟨_, rfl⟩
  obtain ⟨τ, hτ⟩ : ∃ τ, ((val z0.1 - val z1.1) ^ 2 + (val z0.2 - val z1.2) ^ 2) / 4 = τ := ⟨_, rfl⟩
  obtain ⟨t1, t2, t3⟩ := node_exact _ _ _ _ m E α β τ (by linarith) a0 a1 E0 (by linarith) k0 k1 hα.symm hβ.symm hτ.symm
  obtain ⟨S, hS⟩ : ∃ S, (cv z0 + cv z1) / 2 = S := ⟨_, rfl⟩
  obtain ⟨T, hT⟩ : ∃ T, (cv z0 - cv z1) / 2 * (starRingEnd ℂ) s = T := ⟨_, rfl⟩
  have eS : S = ⟨α, β⟩ := by
    rw [← hS, ← hα, ← hβ, show (cv z0 + cv z1) / 2 = (cv z0 + cv z1) / ((2 : ℝ) : ℂ) by norm_num]
    apply Complex.ext
    · rw [Complex.div_ofReal_re, Complex.add_re]; rfl
    · rw [Complex.div_ofReal_im, Complex.add_im]; rfl
  have half2 : ∀ z : ℂ, ‖z / 2‖ = ‖z‖ / 2 := fun z => by rw [norm_div]; norm_num
  have nT : ‖T‖ = ‖cv z0 - cv z1‖ / 2 := by rw [← hT, norm_mul, RCLike.norm_conj, hs, mul_one, half2]
  have nT2 : ‖T‖ ^ 2 = τ := by
    rw [nT, div_pow, ← Complex.normSq_eq_norm_sq, Complex.normSq_apply, Complex.sub_re, Complex.sub_im, ← hτ]; unfold cv; ring
  have nS : ‖S‖ = ‖cv z0 + cv z1‖ / 2 := by rw [← hS, half2]
  have nS2 : ‖S‖ ^ 2 = α ^ 2 + β ^ 2 := by rw [← Complex.normSq_eq_norm_sq, Complex.normSq_apply, eS]; ring
  rw [hS, ← nS] at cA
  rw [hT, ← nT] at cB
  have TS : ‖T‖ ≤ ‖S‖ := by
    rw [← sq_le_sq₀ (norm_nonneg _) (norm_nonneg _), nT2, nS2]; linarith [sq_nonneg β]
  have Slo : m ≤ ‖S‖ := by
    have := Complex.abs_re_le_norm S
    rw [eS] at this ⊢
    refine le_trans ?_ ((le_abs_self _).trans this)
    show m ≤ α
    rw [← hα]; linarith
  have Shi : ‖S‖ ≤ M + 1 := by
    rw [nS]; have := norm_add_le (cv z0) (cv z1); linarith
  obtain ⟨ε, hε⟩ : ∃ ε, 16 * uu * M = ε := ⟨_, rfl⟩
  have ε0 : 0 < ε := by rw [← hε]; positivity
  have uM : uu ≤ uu * M * (1 / 4) := by nlinarith
  have cA' : ‖cv A - S‖ ≤ ε := by
    refine cA.trans ?_
    have := mul_le_mul_of_nonneg_left Shi u0.le
    rw [← hε]; linarith
  have cB' : ‖cv B - T‖ ≤ ε := by
    refine cB.trans ?_
    have := mul_le_mul_of_nonneg_left (TS.trans Shi) u0.le
    rw [← hε]; linarith
  have εs : ε ≤ 1 / 1000 := by
    rw [← hε, un]; norm_num at *; linarith
  have nA1 : ‖S‖ - ε ≤ ‖cv A‖ := by
    have := norm_sub_norm_le S (S - cv A)
    rw [sub_sub_cancel, norm_sub_rev] at this; linarith
  have nA2 : ‖cv A‖ ≤ ‖S‖ + ε := by
    have := norm_add_le (cv A - S) S
    rw [sub_add_cancel] at this; linarith
  have nB2 : ‖cv B‖ ≤ ‖S‖ + ε := by
    have := norm_add_le (cv B - T) T
    rw [sub_add_cancel] at this; linarith
  have A9 : 99 / 100 * ‖S‖ ≤ ‖cv A‖ := by linarith
  have A0 : 0 < ‖cv A‖ := by linarith
  have cA0 : cv A ≠ 0 := norm_pos_iff.1 A0
  have S0 : S ≠ 0 := norm_pos_iff.1 (by linarith)
  obtain ⟨gD, cD⟩ := ldl_close A B A wA (by linarith) (by norm_num at *; linarith) (by norm_num at *; linarith) (by norm_num at *; linarith)
  rw [← hD] at gD cD
  -- the exact values
  have Bsq : ‖cv B‖ ^ 2 / ‖cv A‖ ≤ 102 / 100 * ‖S‖ := by
    rw [div_le_iff₀ A0]
    have q : ‖cv B‖ ≤ 1001 / 1000 * ‖S‖ := by linarith
    have := pow_le_pow_left₀ (norm_nonneg _) q 2
    have t := mul_le_mul_of_nonneg_left A9 (norm_nonneg S)
    have sq0 := sq_nonneg ‖S‖
    have e1 : (1001 / 1000 * ‖S‖) ^ 2 = 1002001 / 1000000 * ‖S‖ ^ 2 := by ring
    have e2 : ‖S‖ * (99 / 100 * ‖S‖) = 99 / 100 * ‖S‖ ^ 2 := by ring
    rw [e1] at this
    rw [e2] at t
    rw [show 102 / 100 * ‖S‖ * ‖cv A‖ = 102 / 100 * (‖S‖ * ‖cv A‖) by ring]
    clear * - this t sq0
    linarith
  have dq : ‖(‖cv B‖ : ℂ) ^ 2 / cv A - (‖T‖ : ℂ) ^ 2 / S‖ ≤ 4 * ε := by
    have e : (‖cv B‖ : ℂ) ^ 2 / cv A - (‖T‖ : ℂ) ^ 2 / S = ((‖cv B‖ ^ 2 - ‖T‖ ^ 2 : ℝ) : ℂ) / cv A + ((‖T‖ ^ 2 : ℝ) : ℂ) * (S - cv A) / (cv A * S) := by
      push_cast; field_simp; ring
    rw [e]
    refine (norm_add_le _ _).trans ?_
    rw [norm_div, norm_div, norm_mul, norm_mul, Complex.norm_real, Complex.norm_real, Real.norm_eq_abs, Real.norm_eq_abs, abs_of_nonneg (sq_nonneg ‖T‖), norm_sub_rev S]
    have x1 : |‖cv B‖ ^ 2 - ‖T‖ ^ 2| ≤ ε * (2 * ‖S‖ + ε) := by
      have d := (abs_norm_sub_norm_le (cv B) T).trans cB'
      rw [show ‖cv B‖ ^ 2 - ‖T‖ ^ 2 = (‖cv B‖ - ‖T‖) * (‖cv B‖ + ‖T‖) by ring, abs_mul, abs_of_nonneg (show 0 ≤ ‖cv B‖ + ‖T‖ by positivity)]
      exact mul_le_mul d (by linarith) (by positivity) ε0.le
    have x2 : |‖cv B‖ ^ 2 - ‖T‖ ^ 2| / ‖cv A‖ ≤ 23 / 10 * ε := by
      rw [div_le_iff₀ A0]
      refine x1.trans ?_
      rw [show 23 / 10 * ε * ‖cv A‖ = ε * (23 / 10 * ‖cv A‖) by ring]
      exact mul_le_mul_of_nonneg_left (by linarith) ε0.le
    have x3 : ‖T‖ ^ 2 * ‖cv A - S‖ / (‖cv A‖ * ‖S‖) ≤ 11 / 10 * ε := by
      rw [div_le_iff₀ (by positivity)]
      have y1 : ‖T‖ ^ 2 ≤ ‖S‖ * ‖S‖ := by rw [sq]; exact mul_le_mul TS TS (norm_nonneg _) (norm_nonneg _)
      have y2 : ‖S‖ ≤ 11 / 10 * ‖cv A‖ := by linarith
      calc ‖T‖ ^ 2 * ‖cv A - S‖ ≤ ‖S‖ * ‖S‖ * ε := mul_le_mul y1 cA' (norm_nonneg _) (by positivity)
        _ ≤ (11 / 10 * ‖cv A‖) * ‖S‖ * ε := mul_le_mul_of_nonneg_right (mul_le_mul_of_nonneg_right y2 (norm_nonneg _)) ε0.le
        _ = _ := by ring
    linarith
  have main : ‖cv D - (S - (‖T‖ : ℂ) ^ 2 / S)‖ ≤ 128 * uu * M := by
    have e : cv D - (S - (‖T‖ : ℂ) ^ 2 / S) = (cv D - (cv A - (‖cv B‖ : ℂ) ^ 2 / cv A)) + ((cv A - S) - ((‖cv B‖ : ℂ) ^ 2 / cv A - (‖T‖ : ℂ) ^ 2 / S)) := by ring
    rw [e]
    refine (norm_add_le _ _).trans ((add_le_add_right (norm_sub_le _ _) _).trans ?_)
    have k1 := mul_le_mul_of_nonneg_left Bsq u0.le
    have k2 := mul_le_mul_of_nonneg_left nA2 u0.le
    have k3 := mul_le_mul_of_nonneg_left Shi u0.le
    have k4 : uu * ε ≤ uu * (1 / 1000) := mul_le_mul_of_nonneg_left εs u0.le
    have : 128 * uu * M = 8 * ε := by rw [← hε]; ring
    have h5 : uu * M = ε / 16 := by rw [← hε]; ring
    linarith
  have eT : (S - (‖T‖ : ℂ) ^ 2 / S) = ⟨α - τ * α / (α ^ 2 + β ^ 2), β + τ * β / (α ^ 2 + β ^ 2)⟩ := by
    have q : (‖T‖ : ℂ) ^ 2 = ((τ : ℝ) : ℂ) := by rw [← nT2]; push_cast; ring
    rw [q, eS]
    apply Complex.ext
    · rw [Complex.sub_re, Complex.div_re, Complex.normSq_mk]
      simp only [Complex.ofReal_re, Complex.ofReal_im]
      ring
    · rw [Complex.sub_im, Complex.div_im, Complex.normSq_mk]
      simp only [Complex.ofReal_re, Complex.ofReal_im]
      ring
  have fin : ∀ (x : C) (y : ℂ) (e : ℝ), ‖cv x - y‖ ≤ e → |val x.1 - y.re| ≤ e ∧ |val x.2 - y.im| ≤ e := fun x y e h =>
    ⟨(Complex.abs_re_le_norm (cv x - y)).trans h, (Complex.abs_im_le_norm (cv x - y)).trans h⟩
  have εM : ε ≤ 128 * uu * M := by rw [← hε]; nlinarith [mul_pos u0 (show (0 : ℝ) < M by linarith)]
  obtain ⟨f1, f2⟩ := fin A S ε cA'
  obtain ⟨f3, f4⟩ := fin D _ _ main
  rw [eS] at f1 f2
  rw [eT] at f3 f4
  simp only at f1 f2 f3 f4
  rw [hα]
  refine ⟨wA, gD.weak, f1.trans εM, ?_, ?_, ?_⟩
  · have bb : |β| ≤ E := by
      obtain ⟨a1, a2⟩ := abs_le.1 k0
      obtain ⟨b1, b2⟩ := abs_le.1 k1
      rw [abs_le, ← hβ]; constructor <;> linarith
    have := abs_add_le (val A.2 - β) β
    rw [sub_add_cancel] at this; linarith
  · have := abs_add_le (val D.1 - (α - τ * α / (α ^ 2 + β ^ 2))) (α - τ * α / (α ^ 2 + β ^ 2) - val z0.1 * val z1.1 / α)
    rw [sub_add_sub_cancel] at this
    linarith
  · have := abs_add_le (val D.2 - (β + τ * β / (α ^ 2 + β ^ 2))) (β + τ * β / (α ^ 2 + β ^ 2))
    rw [sub_add_cancel] at this
    linarith

end Verif.CRef.Fft
