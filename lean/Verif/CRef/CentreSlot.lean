import Verif.CRef.TreeNode

/-! # One step of the sampling tree in one pair of slots: how far the drawn vector is from the target -/

namespace Verif.CRef.Fft

open Verif.CRef.Fpr Verif.CRef.Orth Verif.CRef.SignDyn

theorem merge_slots (s : ℕ) (f0 f1 : List W) (p : ℕ) (hp : p < 2 ^ s) :
    slot (polyMergeFft f0 f1 (s + 2)) (2 ^ (s + 1)) (2 * p) = cAdd (slot f0 (2 ^ s) p) (cMul (slot f1 (2 ^ s) p) (gm (2 ^ (s + 1) + p))) ∧
    slot (polyMergeFft f0 f1 (s + 2)) (2 ^ (s + 1)) (2 * p + 1) = cSub (slot f0 (2 ^ s) p) (cMul (slot f1 (2 ^ s) p) (gm (2 ^ (s + 1) + p))) := by
  have e : 2 ^ (s + 2) / 2 = 2 ^ (s + 1) := by rw [pow_succ]; omega
  have e2 : 2 ^ (s + 1) / 2 = 2 ^ s := by rw [pow_succ]; omega
  have two : 2 ^ (s + 1) = 2 * 2 ^ s := by rw [pow_succ, mul_comm]
  unfold polyMergeFft
  dsimp only
  rw [if_neg (by omega), e, e2]
  constructor
  · rw [(ofSlots_slot (s + 1) _).2 (2 * p) (by omega), if_pos (by omega), show 2 * p / 2 = p by omega, Nat.add_comm p]
  · rw [(ofSlots_slot (s + 1) _).2 (2 * p + 1) (by omega), if_neg (by omega), show (2 * p + 1) / 2 = p by omega, Nat.add_comm p]

theorem ldl_slot1 (s : ℕ) (a b c : List W) (p : ℕ) (hp : p < 2 ^ s) : slot (polyLdlFft a b c (s + 1)).1 (2 ^ s) p =
    ((cDiv (slot b (2 ^ s) p) (slot a (2 ^ s) p)).1, neg (cDiv (slot b (2 ^ s) p) (slot a (2 ^ s) p)).2) := by
  have e : 2 ^ (s + 1) / 2 = 2 ^ s := by rw [pow_succ]; omega
  unfold polyLdlFft
  dsimp only
  rw [e, (ofSlots_slot s _).2 p hp]

/-- The computed multiplier `l10`. -/
theorem mult_close (D0 D1 w : C) (s : ℂ) (hs : ‖s‖ = 1) (hw : ‖cv w - (starRingEnd ℂ) s‖ ≤ 4 * uu) (h0 : Weak D0) (h1 : Weak D1) (a0 : 16 ≤ val D0.1) (a1 : 16 ≤ val D1.1) (b0 : val D0.1 ≤ 2 ^ 26) (b1 : val D1.1 ≤ 2 ^ 26)
    (k0 : |val D0.2| ≤ 1 / 2) (k1 : |val D1.2| ≤ 1 / 2) (A B L : C) (hA : A = hv (cAdd D0 D1)) (hB : B = hv (cMul (cSub D0 D1) w)) (hL : L = ((cDiv B A).1, neg (cDiv B A).2)) :
    ∃ l : ℂ, ‖cv L - l * s‖ ≤ 100 * uu ∧ ‖l‖ ≤ 2 ∧ ‖1 - l‖ ≤ 33 / 32 * (2 * val D1.1 / (val D0.1 + val D1.1)) ∧ ‖1 + l‖ ≤ 33 / 32 * (2 * val D0.1 / (val D0.1 + val D1.1)) := by
  have u0 := uu_pos
  have un := uu_num
  have e0 := eta_pos
  have et := eta_tiny
  have nb : ∀ z : C, 0 ≤ val z.1 → |val z.2| ≤ 1 / 2 → ‖cv z‖ ≤ val z.1 + 1 / 2 := fun z p q => by
    refine (norm_le_parts _).trans ?_
    show |val z.1| + |val z.2| ≤ _
    rw [abs_of_nonneg p]; linarith
  have n0 := nb D0 (by linarith) k0
  have n1 := nb D1 (by linarith) k1
  obtain ⟨wA, cA, wB, cB⟩ := split_slot D0 D1 w s hs hw h0 h1 (by norm_num at *; linarith) (by norm_num at *; linarith)
  rw [← hA] at wA cA
  rw [← hB] at wB cB
  have re0 : (cv D0).re = val D0.1 := rfl
  have re1 : (cv D1).re = val D1.1 := rfl
  have sumlo : val D0.1 + val D1.1 ≤ ‖cv D0 + cv D1‖ := by
    rw [← re0, ← re1, ← Complex.add_re]; exact Complex.re_le_norm _
  have difhi : ‖cv D0 - cv D1‖ ≤ val D0.1 + val D1.1 + 1 := (norm_sub_le _ _).trans (by linarith)
  have sumhi : ‖cv D0 + cv D1‖ ≤ val D0.1 + val D1.1 + 1 := (norm_add_le _ _).trans (by linarith)
  generalize val D0.1 = u at *
  generalize val D1.1 = v at *
  obtain ⟨X, hX⟩ : ∃ X, (cv D0 + cv D1) / 2 = X := ⟨_, rfl⟩
  obtain ⟨Y, hY⟩ : ∃ Y, (cv D0 - cv D1) / 2 = Y := ⟨_, rfl⟩
  have nX : ‖X‖ = ‖cv D0 + cv D1‖ / 2 := by rw [← hX, norm_div]; simp
  have nY : ‖Y‖ = ‖cv D0 - cv D1‖ / 2 := by rw [← hY, norm_div]; simp
  rw [hX, ← nX] at cA
  rw [hY, ← nY] at cB
  have X16 : 16 ≤ ‖X‖ := by rw [nX]; linarith
  have XY : ‖Y‖ ≤ 104 / 100 * ‖X‖ := by rw [nX, nY]; linarith
  have X26 : ‖X‖ ≤ 2 ^ 27 := by rw [nX]; norm_num at *; linarith
  have X0 : X ≠ 0 := fun h => by rw [h, norm_zero] at X16; linarith
  have uX : uu * ‖X‖ ≤ ‖X‖ / 10000 := by rw [un]; norm_num; linarith
  have uu1 : uu * 1 ≤ uu * (‖X‖ / 16) := mul_le_mul_of_nonneg_left (by linarith) u0.le
  have uY : uu * ‖Y‖ ≤ uu * (104 / 100 * ‖X‖) := mul_le_mul_of_nonneg_left XY u0.le
  have nA : ‖cv A - X‖ ≤ ‖X‖ / 1000 := by linarith
  have A1 : 999 / 1000 * ‖X‖ ≤ ‖cv A‖ := by
    have := norm_sub_le (cv A) (cv A - X)
    rw [sub_sub_cancel] at this
    linarith
  have A2 : ‖cv A‖ ≤ 1001 / 1000 * ‖X‖ := by
    have := norm_add_le (cv A - X) X
    rw [sub_add_cancel] at this
    linarith
  have A0 : cv A ≠ 0 := fun h => by rw [h, norm_zero] at A1; linarith
  have nYs : ‖Y * (starRingEnd ℂ) s‖ = ‖Y‖ := by rw [norm_mul, RCLike.norm_conj, hs, mul_one]
  have B2 : ‖cv B‖ ≤ 105 / 100 * ‖X‖ := by
    have := norm_add_le (cv B - Y * (starRingEnd ℂ) s) (Y * (starRingEnd ℂ) s)
    rw [sub_add_cancel, nYs] at this
    linarith
  obtain ⟨_, cQ⟩ := cDiv_close B A (le_trans (by norm_num) ((show (16 : ℝ) * (999 / 1000) ≤ 999 / 1000 * ‖X‖ by linarith).trans A1)) (A2.trans (by norm_num at *; linarith)) (B2.trans (by norm_num at *; linarith))
  have rBA : ‖cv B‖ / ‖cv A‖ ≤ 11 / 10 := by
    rw [div_le_iff₀ (by linarith)]; linarith
  have cX : ‖cv B / cv A - Y * (starRingEnd ℂ) s / X‖ ≤ 20 * uu := by
    have e : cv B / cv A - Y * (starRingEnd ℂ) s / X = ((cv B - Y * (starRingEnd ℂ) s) - Y * (starRingEnd ℂ) s * (cv A - X) / X) / cv A := by field_simp; ring
    rw [e, norm_div, div_le_iff₀ (by linarith)]
    refine (norm_sub_le _ _).trans ?_
    rw [norm_div, norm_mul, nYs]
    have t : ‖Y‖ * ‖cv A - X‖ / ‖X‖ ≤ 104 / 100 * ‖cv A - X‖ := by
      rw [div_le_iff₀ (by linarith)]
      have := mul_le_mul_of_nonneg_right XY (norm_nonneg (cv A - X))
      linarith
    have t2 := mul_le_mul_of_nonneg_left A1 (show 0 ≤ 20 * uu by positivity)
    have : 0 ≤ uu * ‖X‖ := by positivity
    linarith
  refine ⟨(starRingEnd ℂ) (Y / X), ?_, ?_, ?_, ?_⟩
  · have e : cv L - (starRingEnd ℂ) (Y / X) * s = (starRingEnd ℂ) (cv (cDiv B A) - Y * (starRingEnd ℂ) s / X) := by
      rw [hL, conj_cv, map_sub]
      congr 1
      rw [map_div₀, map_div₀, map_mul, Complex.conj_conj]; ring
    rw [e, RCLike.norm_conj]
    have := norm_add_le (cv (cDiv B A) - cv B / cv A) (cv B / cv A - Y * (starRingEnd ℂ) s / X)
    rw [sub_add_sub_cancel] at this
    have t := mul_le_mul_of_nonneg_left rBA (show 0 ≤ 16 * uu by positivity)
    have : 8 * eta ≤ uu := by
      have : eta ≤ uu * (1 / 8) := et.trans (mul_le_mul_of_nonneg_left (by norm_num) u0.le)
      linarith
    linarith
  · rw [RCLike.norm_conj, norm_div, div_le_iff₀ (by linarith)]; linarith
  all_goals have uv : 0 < u + v := by linarith
  · have e : 1 - (starRingEnd ℂ) (Y / X) = (starRingEnd ℂ) (cv D1 / X) := by
      rw [show cv D1 = X - Y by rw [← hX, ← hY]; ring, sub_div, div_self X0, map_sub, map_one]
    rw [e, RCLike.norm_conj, norm_div, div_le_iff₀ (by linarith)]
    have r : (u + v) / 2 ≤ ‖X‖ := by rw [nX]; linarith
    have t := mul_le_mul_of_nonneg_left r (show 0 ≤ 33 / 32 * (2 * v / (u + v)) by positivity)
    rw [show 33 / 32 * (2 * v / (u + v)) * ((u + v) / 2) = 33 / 32 * v by field_simp] at t
    linarith
  · have e : 1 + (starRingEnd ℂ) (Y / X) = (starRingEnd ℂ) (cv D0 / X) := by
      rw [show cv D0 = X + Y by rw [← hX, ← hY]; ring, add_div, div_self X0, map_add, map_one]
    rw [e, RCLike.norm_conj, norm_div, div_le_iff₀ (by linarith)]
    have r : (u + v) / 2 ≤ ‖X‖ := by rw [nX]; linarith
    have t := mul_le_mul_of_nonneg_left r (show 0 ≤ 33 / 32 * (2 * u / (u + v)) by positivity)
    rw [show 33 / 32 * (2 * u / (u + v)) * ((u + v) / 2) = 33 / 32 * u by field_simp] at t
    linarith

end Verif.CRef.Fft
