import Verif.CRef.CentreTree
import Verif.CRef.TreeKey

/-! # The root of the sampling tree: the multiplier, the targets and the target of the first half -/

namespace Verif.CRef.Fft

open Verif.CRef.Kg Verif.CRef Verif.CRef.Fpr Verif.CRef.Orth Verif.CRef.SignDyn Verif.Falcon

/-- The multiplier of the LDL decomposition of the Gram matrix in one slot. -/
theorem mult_root (P Q U V : C) (a d : ℝ) (ha : a = ‖cv P‖ ^ 2 + ‖cv Q‖ ^ 2) (hd : d = ‖cv U‖ ^ 2 + ‖cv V‖ ^ 2) (a1 : 4 ≤ a) (a2 : a ≤ 2 ^ 26) (d1 : 1 ≤ d) (d2 : d ≤ 2 ^ 36)
    (A B : C) (hA : A = (sum4 P Q, add 0 0)) (hB : B = off P Q U V) : ‖cv ((cDiv B A).1, neg (cDiv B A).2)‖ ^ 2 * a ≤ 11 / 10 * d := by
  have u0 := uu_pos
  have un := uu_num
  have a0 : 0 < a := by linarith
  have d0 : 0 ≤ d := by linarith
  obtain ⟨N, hN⟩ : ∃ N, Real.sqrt (a * d) = N := ⟨_, rfl⟩
  have N0 : 0 ≤ N := hN ▸ Real.sqrt_nonneg _
  have NN : N ^ 2 = a * d := by rw [← hN]; exact Real.sq_sqrt (by positivity)
  have N1 : 1 ≤ N := by nlinarith
  have N3 : N ≤ 2 ^ 31 := by
    rw [← abs_of_nonneg N0, ← abs_of_nonneg (show (0 : ℝ) ≤ 2 ^ 31 by positivity), ← sq_le_sq, NN]
    exact (mul_le_mul a2 d2 d0 (by positivity)).trans (by norm_num)
  obtain ⟨cB, nx⟩ := off_close P Q U V a d ha hd N N0 NN N1 (N3.trans (by norm_num))
  rw [← hB] at cB
  generalize cv Q * (starRingEnd ℂ) (cv V) + cv P * (starRingEnd ℂ) (cv U) = x at *
  obtain ⟨oA, cA⟩ := sum4_close P Q a ha (le_trans (by norm_num) a1) (a2.trans (by norm_num))
  have eA : val A.1 = val (sum4 P Q) := by rw [hA]
  rw [← eA] at cA
  have ua : 6 * uu * a ≤ a / 1000 := by rw [un]; norm_num; linarith
  obtain ⟨k1, k2⟩ := abs_le.1 cA
  have z0 : val (add 0 0) = 0 := by
    have v0 : val (0 : W) = 0 := val_eq_zero 0 (by unfold expo; rfl)
    have := (C99_add 0 0 (by unfold Ok expo mant; decide) (by unfold Ok expo mant; decide)).1
    rw [v0, add_zero, abs_zero] at this
    exact (this (by positivity)).2
  obtain ⟨α, hα⟩ : ∃ α, val A.1 = α := ⟨_, rfl⟩
  have nA : ‖cv A‖ = α := by
    have : cv A = ((α : ℝ) : ℂ) := by
      rw [← hα, hA]; unfold cv; apply Complex.ext
      · rfl
      · rw [Complex.ofReal_im]; dsimp only; exact z0
    rw [this, Complex.norm_real, Real.norm_eq_abs, abs_of_nonneg (by linarith)]
  rw [hα] at k1 k2
  have uN : 8 * uu * N ≤ N / 1000 := by rw [un]; norm_num; linarith
  have βN : ‖cv B‖ ≤ 1001 / 1000 * N := by
    have := norm_add_le (cv B - x) x
    rw [sub_add_cancel] at this
    linarith
  obtain ⟨_, cQ⟩ := cDiv_close B A (by rw [nA]; norm_num; linarith) (by rw [nA]; norm_num at *; linarith) (βN.trans (by norm_num at N3 ⊢; linarith))
  rw [conj_cv, RCLike.norm_conj]
  have nq : ‖cv B / cv A‖ = ‖cv B‖ / ‖cv A‖ := norm_div _ _
  have α0 : 0 < α := by linarith
  have q1 : ‖cv B‖ / ‖cv A‖ ≤ 1003 / 1000 * (N / a) := by
    rw [nA, div_le_iff₀ α0, show 1003 / 1000 * (N / a) * α = 1003 / 1000 * N * (α / a) by ring]
    have : 999 / 1000 ≤ α / a := by rw [le_div_iff₀ a0]; linarith
    have := mul_le_mul_of_nonneg_left this (show 0 ≤ 1003 / 1000 * N by positivity)
    linarith
  have r26 : 1 / 2 ^ 26 ≤ N / a := by
    rw [div_le_div_iff₀ (by norm_num) a0]; norm_num at a2 ⊢; linarith
  have e1 : 8 * eta ≤ N / a / 1000 := by
    have : eta ≤ 1 / 2 ^ 53 * (1 / 2 ^ 100) := by have := eta_tiny; rw [un] at this; norm_num at this ⊢; linarith
    norm_num at *; linarith
  have nv := norm_add_le (cv (cDiv B A) - cv B / cv A) (cv B / cv A)
  rw [sub_add_cancel, nq] at nv
  have um : 16 * uu * (‖cv B‖ / ‖cv A‖) ≤ 1 / 1000 * (‖cv B‖ / ‖cv A‖) := mul_le_mul_of_nonneg_right (by rw [un]; norm_num) (by positivity)
  have tot : ‖cv (cDiv B A)‖ ≤ 101 / 100 * (N / a) := by linarith
  have sq := pow_le_pow_left₀ (norm_nonneg _) tot 2
  have sq2 := mul_le_mul_of_nonneg_right sq a0.le
  refine sq2.trans ?_
  rw [show (101 / 100 * (N / a)) ^ 2 * a = 10201 / 10000 * (N ^ 2 / a) by field_simp; norm_num, NN, mul_div_cancel_left₀ _ a0.ne']
  linarith

/-- The multiplier of a key. -/
theorem key_mult (s : ℕ) (hs : s ≤ 9) (f g F G : List ℤ) (hn : IsNtru (2 ^ (s + 1)) f g F G) (hf : Within (2 ^ (maxFgBits[s + 1]! - 1) - 1) f) (hg : Within (2 ^ (maxFgBits[s + 1]! - 1) - 1) g)
    (hF : Within 127 F) (hG : Within 127 G) (p : ℕ) (hp : p < 2 ^ s) (γ : ℝ) (hγ : gramAt (s + 1) f g (root (s + 1) p) = γ) (γ4 : 17 ≤ γ) (γ2 : γ ≤ 2 ^ 24) (gr : List W × List W × List W)
    (hgr : gr = gram (basis f g F G (s + 1)) (s + 1)) : ‖cv (slot (polyLdlFft gr.1 gr.2.1 gr.2.2 (s + 1)).1 (2 ^ s) p)‖ ^ 2 * γ ≤ 12 / 10 * (344 * 10 ^ 8) := by
  obtain ⟨F1, F2⟩ := fft_small s hs f hn.1 hf p hp
  obtain ⟨G1, G2⟩ := fft_small s hs g hn.2.1 hg p hp
  obtain ⟨B1, B2⟩ := fft_big s hs F hn.2.2.1 hF p hp
  obtain ⟨C1, C2⟩ := fft_big s hs G hn.2.2.2.1 hG p hp
  have nt := ntru_at (s + 1) f g F G hn _ (root_pow (s + 1) p)
  obtain ⟨r1, r2, -⟩ := gram_slots s (basis f g F G (s + 1)) p hp
  rw [← hgr] at r1 r2
  rw [ldl_slot1 s _ _ _ p hp]
  unfold basis at r1 r2
  dsimp only at r1 r2
  rw [(polyNeg_slot s _).2 p hp] at r1
  rw [(polyNeg_slot s _).2 p hp, (polyNeg_slot s _).2 p hp] at r2
  rw [r2]
  unfold gramAt at hγ
  generalize slot gr.1 (2 ^ s) p = A at *
  generalize slot (fft (toFpr f (s + 1)) (s + 1)) (2 ^ s) p = f' at *
  generalize slot (fft (toFpr g (s + 1)) (s + 1)) (2 ^ s) p = g' at *
  generalize slot (fft (toFpr F (s + 1)) (s + 1)) (2 ^ s) p = F' at *
  generalize slot (fft (toFpr G (s + 1)) (s + 1)) (2 ^ s) p = G' at *
  generalize value (s + 1) f (root (s + 1) p) = vf at *
  generalize value (s + 1) g (root (s + 1) p) = vg at *
  generalize value (s + 1) F (root (s + 1) p) = vF at *
  generalize value (s + 1) G (root (s + 1) p) = vG at *
  have D := den_close (cv f') (cv g') vf vg _ 2 (by norm_num) le_rfl F1 G1 (by norm_num) (by rw [hγ]; norm_num; linarith)
  rw [hγ] at D
  obtain ⟨D1, D2, D3⟩ := D
  have nf := neg_cv f'
  have nF := neg_cv F'
  obtain ⟨E1, E2⟩ := det_close (cv g') (cv (neg f'.1, neg f'.2)) (cv G') (cv (neg F'.1, neg F'.2)) vg vf vG vF G1 (by rw [nf, show -cv f' + vf = -(cv f' - vf) by ring, norm_neg]; exact F1) C1
    (by rw [nF, show -cv F' + vF = -(cv F' - vF) by ring, norm_neg]; exact B1) G2 F2 C2 B2 nt
  obtain ⟨a, ha⟩ : ∃ a, ‖cv f'‖ ^ 2 + ‖cv g'‖ ^ 2 = a := ⟨_, rfl⟩
  rw [ha] at D1 D2 D3
  have γ0 : 0 < γ := by linarith
  have a0 : 0 < a := by linarith
  have ag : |γ - a| ≤ 1 / 2 ^ 31 * a := by
    have e : γ - a = (1 / a - 1 / γ) * (a * γ) := by field_simp
    rw [e, abs_mul, abs_of_pos (mul_pos a0 γ0)]
    refine (mul_le_mul_of_nonneg_right D3 (by positivity)).trans (le_of_eq ?_)
    field_simp
  obtain ⟨x1, x2⟩ := abs_le.1 ag
  obtain ⟨d, hd⟩ : ∃ d, ‖cv G'‖ ^ 2 + ‖cv (neg F'.1, neg F'.2)‖ ^ 2 = d := ⟨_, rfl⟩
  have ha' : a = ‖cv g'‖ ^ 2 + ‖cv (neg f'.1, neg f'.2)‖ ^ 2 := by rw [nf, norm_neg, ← ha]; ring
  rw [hd] at E2
  have a26 : a ≤ 2 ^ 26 := by norm_num at *; linarith
  have d1 : 1 ≤ d := by
    have det := gram_det (cv g') (cv (neg f'.1, neg f'.2)) (cv G') (cv (neg F'.1, neg F'.2))
    rw [← ha', hd] at det
    have l : 12288 ≤ ‖cv g' * cv (neg F'.1, neg F'.2) - cv (neg f'.1, neg f'.2) * cv G'‖ := by
      have := (abs_le.1 E1).1
      norm_num at this ⊢; linarith
    generalize cv g' * cv (neg F'.1, neg F'.2) - cv (neg f'.1, neg f'.2) * cv G' = X at *
    have sq := pow_le_pow_left₀ (by norm_num) l 2
    have := sq_nonneg ‖cv (neg f'.1, neg f'.2) * (starRingEnd ℂ) (cv (neg F'.1, neg F'.2)) + cv g' * (starRingEnd ℂ) (cv G')‖
    by_contra hn
    push Not at hn
    have d0 : 0 ≤ d := by rw [← hd]; positivity
    have m1 : a * d ≤ 2 ^ 26 * 1 := mul_le_mul a26 hn.le d0 (by norm_num)
    have num : (2 : ℝ) ^ 26 * 1 < 12288 ^ 2 := by norm_num
    linarith
  have M := mult_root g' (neg f'.1, neg f'.2) G' (neg F'.1, neg F'.2) a d ha' hd.symm (by linarith) a26 d1 (E2.trans (by norm_num)) A _ r1 rfl
  generalize cv ((cDiv (off g' (neg f'.1, neg f'.2) G' (neg F'.1, neg F'.2)) A).1, neg (cDiv (off g' (neg f'.1, neg f'.2) G' (neg F'.1, neg F'.2)) A).2) = z at *
  have t := mul_le_mul_of_nonneg_left (show γ ≤ 105 / 100 * a by norm_num at x2 ⊢; linarith) (sq_nonneg ‖z‖)
  norm_num at *
  linarith

end Verif.CRef.Fft
