import Verif.CRef.TreeRoot
import Verif.CRef.OrthProps

/-! # The two nodes below the root of the sampling tree of a Falcon key -/

namespace Verif.CRef.Fft

open Verif.CRef.Kg Verif.CRef Verif.CRef.Fpr Verif.CRef.Orth Verif.CRef.SignDyn

theorem neg_cv (b : C) : cv (neg b.1, neg b.2) = -cv b := by
  unfold cv
  apply Complex.ext
  · show val (neg b.1) = -val b.1
    exact (C99_neg _).1
  · show val (neg b.2) = -val b.2
    exact (C99_neg _).1

/-- The transform of `F` or `G`. -/
theorem fft_big (s : ℕ) (hs : s ≤ 9) (f : List ℤ) (hl : f.length = 2 ^ (s + 1)) (hf : Within 127 f) : ∀ p < 2 ^ s,
    ‖cv (slot (fft (toFpr f (s + 1)) (s + 1)) (2 ^ s) p) - value (s + 1) f (root (s + 1) p)‖ ≤ 1 / 2 ^ 29 * (9 / 16) ∧ ‖value (s + 1) f (root (s + 1) p)‖ ≤ 2 ^ 17 := by
  have hb : ∀ x ∈ f, |x| ≤ (127 : ℤ) := fun x hx => abs_le.2 (hf x hx)
  have A := fft_ap s hs _ f 127 (inRange_of _ (by norm_num) (by norm_num)) (toFpr_holds _ f hl 127 (by norm_num) (by norm_num) hb) fun j _ => by exact_mod_cast getD_bound f 127 (by norm_num) hb j
  have t1 : (2 : ℝ) ^ (s + 1) * 127 ≤ 2 ^ 17 := by
    have : (2 : ℝ) ^ (s + 1) ≤ 2 ^ 10 := pow_le_pow_right₀ (by norm_num) (by omega)
    norm_num at *; linarith
  intro p hp
  refine ⟨(A.2.2.1 p hp).2.trans ?_, (A.2.2.2 p hp).trans t1⟩
  have s9 : (s : ℝ) ≤ 9 := by exact_mod_cast hs
  have u0 := uu_pos
  have m1 : 8 * (s : ℝ) * (uu * (2 ^ (s + 1) * 127)) ≤ 8 * 9 * (uu * 2 ^ 17) := by
    refine mul_le_mul (by linarith) (mul_le_mul_of_nonneg_left t1 u0.le) (by positivity) (by norm_num)
  refine m1.trans ?_
  unfold uu
  norm_num

theorem gram_slots (s : ℕ) (b : List W × List W × List W × List W) (p : ℕ) (hp : p < 2 ^ s) :
    slot (gram b (s + 1)).1 (2 ^ s) p = (sum4 (slot b.1 (2 ^ s) p) (slot b.2.1 (2 ^ s) p), add 0 0) ∧
    slot (gram b (s + 1)).2.1 (2 ^ s) p = off (slot b.1 (2 ^ s) p) (slot b.2.1 (2 ^ s) p) (slot b.2.2.1 (2 ^ s) p) (slot b.2.2.2 (2 ^ s) p) ∧
    slot (gram b (s + 1)).2.2 (2 ^ s) p = (sum4 (slot b.2.2.1 (2 ^ s) p) (slot b.2.2.2 (2 ^ s) p), add 0 0) := by
  have e : 2 ^ (s + 1) / 2 = 2 ^ s := by rw [pow_succ]; omega
  unfold gram polyMulselfadjFft polyMuladjFft sum4 off
  dsimp only
  rw [e]
  refine ⟨?_, ?_, ?_⟩
  all_goals rw [(polyAdd_slot s _ _).2 p hp, (ofSlots_slot s _).2 p hp, (ofSlots_slot s _).2 p hp]; try rfl

/-- Numbers: the values at one root. -/
theorem det_close (P Q U V g f G F : ℂ) (eP : ‖P - g‖ ≤ 9 / 8 / 2 ^ 33) (eQ : ‖Q + f‖ ≤ 9 / 8 / 2 ^ 33) (eU : ‖U - G‖ ≤ 1 / 2 ^ 29 * (9 / 16)) (eV : ‖V + F‖ ≤ 1 / 2 ^ 29 * (9 / 16))
    (bg : ‖g‖ ≤ 2 ^ 14) (bf : ‖f‖ ≤ 2 ^ 14) (bG : ‖G‖ ≤ 2 ^ 17) (bF : ‖F‖ ≤ 2 ^ 17) (h : f * G - g * F = 12289) :
    |‖P * V - Q * U‖ - 12289| ≤ 1 / 2 ^ 13 ∧ ‖U‖ ^ 2 + ‖V‖ ^ 2 ≤ 344 * 10 ^ 8 := by
  have nU : ‖U‖ ≤ 2 ^ 17 + 1 := by
    have := norm_add_le (U - G) G
    rw [sub_add_cancel] at this
    norm_num at *; linarith
  have nV : ‖V‖ ≤ 2 ^ 17 + 1 := by
    have := norm_add_le (V + F) (-F)
    rw [add_neg_cancel_right, norm_neg] at this
    norm_num at *; linarith
  constructor
  · have e : P * V - Q * U - 12289 = (P - g) * V + g * (V + F) - ((Q + f) * U + -f * (U - G)) := by rw [← h]; ring
    have k : ‖P * V - Q * U - 12289‖ ≤ 1 / 2 ^ 13 := by
      rw [e]
      refine (norm_sub_le _ _).trans ((add_le_add (norm_add_le _ _) (norm_add_le _ _)).trans ?_)
      rw [norm_mul, norm_mul, norm_mul, norm_mul, norm_neg]
      have m1 := mul_le_mul eP nV (norm_nonneg _) (by norm_num)
      have m2 := mul_le_mul bg eV (norm_nonneg _) (by norm_num)
      have m3 := mul_le_mul eQ nU (norm_nonneg _) (by norm_num)
      have m4 := mul_le_mul bf eU (norm_nonneg _) (by norm_num)
      norm_num at *
      linarith
    have t := (abs_norm_sub_norm_le (P * V - Q * U) 12289).trans k
    rwa [show ‖(12289 : ℂ)‖ = 12289 by simp] at t
  · have a := pow_le_pow_left₀ (norm_nonneg _) nU 2
    have b := pow_le_pow_left₀ (norm_nonneg _) nV 2
    norm_num at *
    linarith

/-- The quotient of the determinant. -/
theorem quo_close (Δ a γ : ℝ) (hΔ : |Δ - 12289| ≤ 1 / 2 ^ 13) (γ0 : 0 < γ) (ha : |1 / a - 1 / γ| ≤ 1 / (2 ^ 30 * 2) * (1 / γ)) : |Δ ^ 2 / a - 12289 ^ 2 / γ| ≤ 1 / 2 ^ 24 * (12289 ^ 2 / γ) := by
  have e : Δ ^ 2 / a - 12289 ^ 2 / γ = Δ ^ 2 * (1 / a - 1 / γ) + (Δ ^ 2 - 12289 ^ 2) * (1 / γ) := by ring
  obtain ⟨i, hi⟩ : ∃ i, 1 / γ = i := ⟨_, rfl⟩
  have i0 : 0 < i := by rw [← hi]; positivity
  rw [e, hi]
  rw [hi] at ha
  rw [show (12289 : ℝ) ^ 2 / γ = 12289 ^ 2 * i by rw [← hi]; ring]
  obtain ⟨l, u⟩ := abs_le.1 hΔ
  have d2 : Δ ^ 2 ≤ 12290 ^ 2 := by
    refine pow_le_pow_left₀ ?_ ?_ 2 <;> norm_num at * <;> linarith
  have dd : |Δ ^ 2 - 12289 ^ 2| ≤ 1 / 2 ^ 13 * 24579 := by
    rw [show Δ ^ 2 - 12289 ^ 2 = (Δ - 12289) * (Δ + 12289) by ring, abs_mul]
    refine mul_le_mul hΔ ?_ (abs_nonneg _) (by norm_num)
    rw [abs_le]; norm_num at *; constructor <;> linarith
  refine (abs_add_le _ _).trans ?_
  rw [abs_mul, abs_mul, abs_of_nonneg (sq_nonneg Δ), abs_of_pos i0]
  have m1 := mul_le_mul d2 ha (abs_nonneg _) (by norm_num)
  have m2 := mul_le_mul_of_nonneg_right dd i0.le
  norm_num at *
  linarith

/-- The diagonal elements of the Gram matrix and of its LDL decomposition in one slot, for a key. -/
theorem key_slot (s : ℕ) (hs : s ≤ 9) (f g F G : List ℤ) (hn : IsNtru (2 ^ (s + 1)) f g F G) (hf : Within (2 ^ (maxFgBits[s + 1]! - 1) - 1) f) (hg : Within (2 ^ (maxFgBits[s + 1]! - 1) - 1) g)
    (hF : Within 127 F) (hG : Within 127 G) (p : ℕ) (hp : p < 2 ^ s) (γ : ℝ) (hγ : gramAt (s + 1) f g (root (s + 1) p) = γ) (γ4 : 17 ≤ γ) (γ2 : γ ≤ 2 ^ 24) (gr : List W × List W × List W)
    (hgr : gr = gram (basis f g F G (s + 1)) (s + 1)) :
    Weak (slot gr.1 (2 ^ s) p) ∧ val (slot gr.1 (2 ^ s) p).1 ≤ (1 + 1 / 2 ^ 28) * γ ∧ γ ≤ (1 + 1 / 2 ^ 28) * val (slot gr.1 (2 ^ s) p).1 ∧ val (slot gr.1 (2 ^ s) p).2 = 0 ∧
    Weak (slot (polyLdlFft gr.1 gr.2.1 gr.2.2 (s + 1)).2 (2 ^ s) p) ∧
    |val (slot (polyLdlFft gr.1 gr.2.1 gr.2.2 (s + 1)).2 (2 ^ s) p).1 - 12289 ^ 2 / γ| ≤ 1 / 2 ^ 24 * (12289 ^ 2 / γ) + 1 / 2 ^ 12 ∧
    |val (slot (polyLdlFft gr.1 gr.2.1 gr.2.2 (s + 1)).2 (2 ^ s) p).2| ≤ 1 / 2 ^ 12 := by
  have u0 := uu_pos
  have un := uu_num
  obtain ⟨F1, F2⟩ := fft_small s hs f hn.1 hf p hp
  obtain ⟨G1, G2⟩ := fft_small s hs g hn.2.1 hg p hp
  obtain ⟨B1, B2⟩ := fft_big s hs F hn.2.2.1 hF p hp
  obtain ⟨C1, C2⟩ := fft_big s hs G hn.2.2.2.1 hG p hp
  have nt := ntru_at (s + 1) f g F G hn _ (root_pow (s + 1) p)
  obtain ⟨r1, r2, r3⟩ := gram_slots s (basis f g F G (s + 1)) p hp
  rw [← hgr] at r1 r2 r3
  rw [ldl_slot s _ _ _ p hp]
  unfold basis at r1 r2 r3
  dsimp only at r1 r2 r3
  rw [(polyNeg_slot s _).2 p hp] at r1
  rw [(polyNeg_slot s _).2 p hp, (polyNeg_slot s _).2 p hp] at r2
  rw [(polyNeg_slot s _).2 p hp] at r3
  rw [r2, r3]
  unfold gramAt at hγ
  generalize slot gr.1 (2 ^ s) p = A at *
  generalize slot (fft (toFpr f (s + 1)) (s + 1)) (2 ^ s) p = f' at *
  generalize slot (fft (toFpr g (s + 1)) (s + 1)) (2 ^ s) p = g' at *
  generalize slot (fft (toFpr F (s + 1)) (s + 1)) (2 ^ s) p = F' at *
  generalize slot (fft (toFpr G (s + 1)) (s + 1)) (2 ^ s) p = G' at *
  generalize value (s + 1) f (root (s + 1) p) = vf at *
  generalize value (s + 1) g (root (s + 1) p) = vg at *
  generalize value (s + 1) F (root (s + 1) p) = vF at *
  generalize value (s + 1) G (root (s + 1) p) = vG at *
  have D := den_close (cv f') (cv g') vf vg _ 2 (by norm_num) le_rfl F1 G1 (by norm_num) (by rw [hγ]; norm_num; linarith)
  rw [hγ] at D
  obtain ⟨D1, D2, D3⟩ := D
  have nf := neg_cv f'
  have nF := neg_cv F'
  have E := det_close (cv g') (cv (neg f'.1, neg f'.2)) (cv G') (cv (neg F'.1, neg F'.2)) vg vf vG vF G1 (by rw [nf, show -cv f' + vf = -(cv f' - vf) by ring, norm_neg]; exact F1) C1
    (by rw [nF, show -cv F' + vF = -(cv F' - vF) by ring, norm_neg]; exact B1) G2 F2 C2 B2 nt
  obtain ⟨E1, E2⟩ := E
  obtain ⟨a, ha⟩ : ∃ a, ‖cv f'‖ ^ 2 + ‖cv g'‖ ^ 2 = a := ⟨_, rfl⟩
  rw [ha] at D1 D2 D3
  have Q := quo_close _ a γ E1 (by linarith) D3
  obtain ⟨w1, w2, w3, w4, w5, w6⟩ := root_slot g' (neg f'.1, neg f'.2) G' (neg F'.1, neg F'.2) a _ _ (by rw [nf, norm_neg, ← ha]; ring) rfl rfl (by linarith) (by norm_num at *; linarith) (E2.trans (by norm_num)) (by
      have := (abs_le.1 E1).1
      norm_num at *; linarith) A (off g' (neg f'.1, neg f'.2) G' (neg F'.1, neg F'.2)) _ r1 rfl rfl
  have kd : 60 * uu * (‖cv G'‖ ^ 2 + ‖cv (neg F'.1, neg F'.2)‖ ^ 2) ≤ 1 / 2 ^ 12 := by
    have := mul_le_mul_of_nonneg_left E2 (show 0 ≤ 60 * uu by positivity)
    refine this.trans ?_
    rw [un]; norm_num
  have γ0 : 0 < γ := by linarith
  have a0 : 0 < a := by linarith
  -- the ratio of `a` and `γ`
  have ag : |γ - a| ≤ 1 / 2 ^ 31 * a := by
    have e : γ - a = (1 / a - 1 / γ) * (a * γ) := by field_simp
    rw [e, abs_mul, abs_of_pos (mul_pos a0 γ0)]
    refine (mul_le_mul_of_nonneg_right D3 (by positivity)).trans (le_of_eq ?_)
    field_simp
  obtain ⟨x1, x2⟩ := abs_le.1 ag
  obtain ⟨y1, y2⟩ := abs_le.1 w2
  rw [un] at y1 y2
  refine ⟨w1, ?_, ?_, w3, w4, ?_, w6.trans kd⟩
  · norm_num at *; linarith
  · norm_num at *; linarith
  · have := (abs_add_le _ _).trans (add_le_add (w5.trans kd) Q)
    rw [sub_add_sub_cancel] at this
    linarith

end Verif.CRef.Fft
