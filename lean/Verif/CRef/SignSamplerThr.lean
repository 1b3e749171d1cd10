import Verif.CRef.SignSamplerBer

/-! # C98, third part: the threshold of `BerExp` is `2^64 · ccs · exp(-x)` up to `2^15` -/

namespace Verif.CRef.SignSampler
open Verif.CRef Verif.CRef.Fpr

theorem tiny : (2 : ℝ) ^ (-1022 : ℤ) ≤ 1 / 2 ^ 60 := by
  rw [show (1 / 2 ^ 60 : ℝ) = (2 : ℝ) ^ (-60 : ℤ) by norm_num]
  exact zpow_le_zpow_right₀ (by norm_num) (by norm_num)

theorem small_of_le (r : ℝ) (h0 : 0 ≤ r) (h : r ≤ 2 ^ 40) : |r| < 2 ^ 1000 := by
  rw [abs_of_nonneg h0]; exact h.trans_lt (pow_lt_pow_right₀ (by norm_num) (by norm_num))

theorem log2_range : 0.693 ≤ val log2 ∧ val log2 ≤ 0.694 ∧ 1.44 ≤ val invLog2 ∧ val invLog2 ≤ 1.45 ∧ 1 - 1 / 2 ^ 53 ≤ val log2 * val invLog2 := by
  rw [val_log2, val_invLog2]
  refine ⟨?_, ?_, ?_, ?_, ?_⟩ <;> norm_num [mL, mI]

/-- The saturation of `s` at 63. -/
theorem saturate (s : ℕ) (hs : s < 2 ^ 31) : (BitVec.ofNat 32 s ^^^ ((BitVec.ofNat 32 s ^^^ 63#32) &&& -((63#32 - BitVec.ofNat 32 s) >>> 31))).toNat = min s 63 := by
  have e : (63#32 - BitVec.ofNat 32 s) >>> 31 = BitVec.ofNat 32 (decide (63 < s)).toNat := by
    apply BitVec.eq_of_toNat_eq
    rw [BitVec.toNat_ushiftRight, Nat.shiftRight_eq_div_pow, BitVec.toNat_sub, BitVec.toNat_ofNat, BitVec.toNat_ofNat, BitVec.toNat_ofNat]
    by_cases h : 63 < s
    · rw [decide_eq_true h]; simp only [Bool.toNat_true]; omega
    · rw [decide_eq_false h]; simp only [Bool.toNat_false]; omega
  rw [e]
  by_cases h : 63 < s
  · rw [decide_eq_true h, show -(BitVec.ofNat 32 true.toNat) = BitVec.allOnes 32 by decide, BitVec.and_allOnes, ← BitVec.xor_assoc, BitVec.xor_self, BitVec.zero_xor]
    show 63 = _; omega
  · rw [decide_eq_false h, show -(BitVec.ofNat 32 false.toNat) = 0#32 by decide, BitVec.and_zero, BitVec.xor_zero, BitVec.toNat_ofNat]
    omega

/-- The range reduction in words. -/
theorem reduce_words (x : W) (hx : Ok x) (h0 : 0 ≤ val x) (h1 : val x ≤ 1000) :
    ∃ (s : ℕ) (r : W), s ≤ 1500 ∧ (trunc (mul x invLog2)).setWidth 32 = BitVec.ofNat 32 s ∧ (s : ℝ) ≤ fl (val x * val invLog2) ∧ fl (val x * val invLog2) < s + 1 ∧
      sub x (mul (of ((BitVec.ofNat 32 s).signExtend 64)) log2) = r ∧ Ok r ∧ val r = fl (val x - fl (s * val log2)) := by
  obtain ⟨l1, l2, i1, i2, -⟩ := log2_range
  obtain ⟨y, hy⟩ : ∃ y, val x * val invLog2 = y := ⟨_, rfl⟩
  have hy0 : 0 ≤ y := by rw [← hy]; exact mul_nonneg h0 (by norm_num at i1; linarith)
  have hy1 : y ≤ 1450 := by
    rw [← hy]
    have := mul_le_mul h1 i2 (by norm_num at i1; linarith) (by norm_num)
    norm_num at this; linarith
  obtain ⟨-, hv⟩ := rounded_fl _ _ (C99_mul x invLog2) (by rw [hy]; exact small_of_le y hy0 (hy1.trans (by norm_num)))
  rw [hy] at hv
  have f0 := fl_nonneg y hy0
  have f1 : fl y ≤ 1450 := fl_le y 1450 hy0 hy1 (by have := is53_int 1450 (by norm_num); exact_mod_cast this)
  have ht := C99_trunc (mul x invLog2) (by rw [hv, abs_of_nonneg f0]; linarith)
  rw [hv] at ht
  unfold towardZero at ht
  rw [if_pos f0, ← Int.natCast_floor_eq_floor f0] at ht
  have ht2 := int64_nat _ _ ht
  obtain ⟨s, hs⟩ : ∃ s, ⌊fl y⌋₊ = s := ⟨_, rfl⟩
  have s1 : (s : ℝ) ≤ fl y := by rw [← hs]; exact Nat.floor_le f0
  have s2 : fl y < s + 1 := by rw [← hs]; exact Nat.lt_floor_add_one _
  rw [hs] at ht2
  have s3 : s ≤ 1500 := by
    have : (s : ℝ) ≤ 1500 := by linarith
    exact_mod_cast this
  have e32 : (trunc (mul x invLog2)).setWidth 32 = BitVec.ofNat 32 s := by
    apply BitVec.eq_of_toNat_eq
    rw [BitVec.toNat_setWidth, ht2, BitVec.toNat_ofNat]
  have e64 : ((BitVec.ofNat 32 s).signExtend 64).toNat = s := by
    rw [BitVec.signExtend_eq_setWidth_of_msb_false, BitVec.toNat_setWidth, BitVec.toNat_ofNat]
    · omega
    · rw [BitVec.msb_eq_false_iff_two_mul_lt, BitVec.toNat_ofNat]; omega
  have hof := val_of ((BitVec.ofNat 32 s).signExtend 64) s (by unfold int64; rw [e64, if_pos (by omega)]) (by rw [abs_of_nonneg (by positivity)]; omega)
  rw [Int.cast_natCast] at hof
  have hsl : (s : ℝ) * val log2 ≤ 1500 := by
    have : (s : ℝ) ≤ 1500 := by exact_mod_cast s3
    have := mul_le_mul this l2 (by norm_num at l1; linarith) (by norm_num)
    norm_num at this; linarith
  have hsl0 : 0 ≤ (s : ℝ) * val log2 := mul_nonneg (Nat.cast_nonneg _) (by norm_num at l1; linarith)
  have hm := C99_mul (of ((BitVec.ofNat 32 s).signExtend 64)) log2
  rw [hof.2] at hm
  obtain ⟨o2, v2⟩ := rounded_fl _ _ hm (small_of_le _ hsl0 (hsl.trans (by norm_num)))
  have p0 := fl_nonneg _ hsl0
  have p1 : fl ((s : ℝ) * val log2) ≤ 1500 := fl_le _ 1500 hsl0 hsl (by have := is53_int 1500 (by norm_num); exact_mod_cast this)
  have hsub := C99_sub x (mul (of ((BitVec.ofNat 32 s).signExtend 64)) log2) hx o2
  rw [v2] at hsub
  obtain ⟨o3, v3⟩ := rounded_fl _ _ hsub (by
    refine lt_of_le_of_lt (b := (2500 : ℝ)) ?_ ((show (2500 : ℝ) < 2 ^ 12 by norm_num).trans (pow_lt_pow_right₀ (by norm_num) (by norm_num)))
    rw [abs_le]; constructor <;> linarith)
  rw [hy]
  exact ⟨s, _, s3, e32, s1, s2, rfl, o3, v3⟩

/-- The remainder is in range, and close to `x - s·log 2`. -/
theorem reduce_real (X : ℝ) (hX : Is53 X) (h0 : 0 ≤ X) (s : ℕ) (hs : s < 63) (s1 : (s : ℝ) ≤ fl (X * val invLog2)) (s2 : fl (X * val invLog2) < s + 1) :
    0 ≤ fl (X - fl (s * val log2)) ∧ fl (X - fl (s * val log2)) ≤ 0.695 ∧ |X - s * Real.log 2 - fl (X - fl (s * val log2))| ≤ (s + 1) / 2 ^ 52 := by
  obtain ⟨l1, l2, i1, i2, li⟩ := log2_range
  have hlog : |val log2 - Real.log 2| ≤ Real.log 2 / 2 ^ 53 := by
    have h : val log2 = rnd (Real.log 2) := C100_log.1
    have := rnd_err (Real.log 2)
    rwa [← h, abs_of_pos (Real.log_pos (by norm_num))] at this
  have hl2 := Real.log_two_lt_d9
  have hnn := reduce_nonneg X hX h0 s hs s1
  have hS0 : (0 : ℝ) ≤ s := Nat.cast_nonneg _
  have hS1 : (s : ℝ) ≤ 62 := by exact_mod_cast (show s ≤ 62 by omega)
  have hXI : X * val invLog2 < s + 1 := by
    by_contra h
    push Not at h
    have hi : Is53 (((s : ℝ) + 1)) := by
      have := is53_int (s + 1) (by rw [abs_of_nonneg (by positivity)]; omega)
      push_cast at this; exact this
    have := le_fl _ _ hi (by right; exact tiny.trans (by norm_num; linarith)) h
    linarith
  have t := tiny
  have hP := fl_err ((s : ℝ) * val log2)
  have hsl0 : 0 ≤ (s : ℝ) * val log2 := mul_nonneg hS0 (by norm_num at l1; linarith)
  rw [abs_of_nonneg hsl0] at hP
  have hR := fl_err (X - fl ((s : ℝ) * val log2))
  rw [abs_of_nonneg (sub_nonneg.2 hnn)] at hR
  have hR0 := fl_nonneg (X - fl ((s : ℝ) * val log2)) (by linarith)
  generalize fl ((s : ℝ) * val log2) = P at *
  generalize fl (X - P) = R at *
  generalize (2 : ℝ) ^ (-1022 : ℤ) = ε at *
  generalize val log2 = L at *
  generalize val invLog2 = I at *
  generalize Real.log 2 = G at *
  generalize (s : ℝ) = S at *
  rw [abs_le] at hP hR hlog
  obtain ⟨P1, P2⟩ := hP
  obtain ⟨R1, R2⟩ := hR
  obtain ⟨g1, g2⟩ := hlog
  norm_num at l1 l2 i1 i2
  -- X ≤ (S + 1) (L + 2^-52)
  have hXL : X ≤ (S + 1) * (L + 1 / 2 ^ 52) := by
    by_contra h
    push Not at h
    have h3 : (S + 1) * (L + 1 / 2 ^ 52) * I ≤ X * I := mul_le_mul_of_nonneg_right h.le (by linarith)
    have h4 : (S + 1) * 1 ≤ (S + 1) * ((L + 1 / 2 ^ 52) * I) := by
      apply mul_le_mul_of_nonneg_left _ (by linarith)
      have : 1 / 2 ^ 52 * 1 ≤ 1 / 2 ^ 52 * I := mul_le_mul_of_nonneg_left (by linarith) (by norm_num)
      norm_num at *; linarith
    linarith
  have hSL : S * L ≤ 62 * L := mul_le_mul_of_nonneg_right hS1 (by linarith)
  have hXP : X - P ≤ 0.694001 := by
    norm_num at *
    linarith
  have hXP' : X - P ≤ 0.6942 := by norm_num at hXP ⊢; linarith
  refine ⟨hR0, ?_, ?_⟩
  · norm_num at *; linarith
  · have m1 : S * (L - G) ≤ S * (G / 2 ^ 53) := mul_le_mul_of_nonneg_left g2 hS0
    have m2 : S * (-(G / 2 ^ 53)) ≤ S * (L - G) := mul_le_mul_of_nonneg_left g1 hS0
    have m3 : S * G ≤ S * 0.7 := mul_le_mul_of_nonneg_left (by norm_num at *; linarith) hS0
    have m4 : S * L ≤ S * 0.7 := mul_le_mul_of_nonneg_left (by norm_num at *; linarith) hS0
    rw [abs_le]
    norm_num at *
    constructor <;> linarith

/-- **C98**: for a finite exponent `x` in `[0, 1000]` and a scaling factor in `[1/2, 1)`, the 64-bit threshold of `BerExp` is `2^64 · ccs · exp(-x)` up to `2^15`; the remainder `r` is never negative. -/
theorem C98_threshold (x ccs : W) (hx : Ok x) (h0 : 0 ≤ val x) (h1 : val x ≤ 1000) (c0 : 1 / 2 ≤ val ccs) (c1 : val ccs < 1) :
    |((threshold x ccs).toNat : ℝ) / 2 ^ 64 - val ccs * Real.exp (-val x)| ≤ 1 / 2 ^ 49 := by
  obtain ⟨s, r, s3, e32, s1, s2, hr, -, vr⟩ := reduce_words x hx h0 h1
  unfold threshold
  simp only
  rw [e32, hr, saturate s (by omega)]
  have hE0 := Real.exp_pos (-val x)
  rcases Nat.lt_or_ge s 63 with hs | hs
  · obtain ⟨r0, r1, r2⟩ := reduce_real (val x) (is53_val x) h0 s hs s1 s2
    rw [← vr] at r0 r1 r2
    rw [show min s 63 = s by omega]
    obtain ⟨a1, a2, a3⟩ := expm63_close r ccs r0 r1 c0 c1
    have eN : (((expm63 r ccs <<< 1) - 1#64) >>> s).toNat = (2 * (expm63 r ccs).toNat - 1) / 2 ^ s := by
      rw [toNat_shr, BitVec.toNat_sub, toNat_shl _ _ (by omega)]
      congr 1
      rw [show (1#64).toNat = 1 from rfl]; omega
    rw [eN]
    generalize (expm63 r ccs).toNat = E at *
    obtain ⟨z, hz⟩ : ∃ z, (2 * E - 1) / 2 ^ s = z := ⟨_, rfl⟩
    have z1 : (z : ℝ) * 2 ^ s ≤ 2 * E - 1 := by
      have := Nat.div_mul_le_self (2 * E - 1) (2 ^ s)
      rw [hz] at this
      have : ((z * 2 ^ s : ℕ) : ℝ) ≤ ((2 * E - 1 : ℕ) : ℝ) := by exact_mod_cast this
      rw [Nat.cast_sub (by omega)] at this
      push_cast at this; exact this
    have z2 : 2 * (E : ℝ) - 1 < (z + 1) * 2 ^ s := by
      have := Nat.lt_div_mul_add (a := 2 * E - 1) (b := 2 ^ s) (by positivity)
      rw [hz] at this
      have : ((2 * E - 1 : ℕ) : ℝ) < ((z * 2 ^ s + 2 ^ s : ℕ) : ℝ) := by exact_mod_cast this
      rw [Nat.cast_sub (by omega)] at this
      push_cast at this; linarith
    rw [hz]
    -- exp(-x)
    obtain ⟨δ, hδ⟩ : ∃ δ, val x - s * Real.log 2 - val r = δ := ⟨_, rfl⟩
    rw [hδ] at r2
    have hexp : Real.exp (-val x) * 2 ^ s = Real.exp (-val r) * Real.exp (-δ) := by
      have : (2 : ℝ) ^ s = Real.exp (s * Real.log 2) := by
        rw [Real.exp_nat_mul, Real.exp_log (by norm_num)]
      rw [this, ← Real.exp_add, ← Real.exp_add]
      congr 1
      rw [← hδ]; ring
    have hsd : ((s : ℝ) + 1) / 2 ^ 52 ≤ 1 := by
      have : (s : ℝ) ≤ 63 := by exact_mod_cast hs.le
      rw [div_le_one (by norm_num)]; linarith
    have hδe := Real.abs_exp_sub_one_le (x := -δ) (by rw [abs_neg]; exact r2.trans hsd)
    rw [abs_neg] at hδe
    have er1 : Real.exp (-val r) ≤ 1 := by rw [Real.exp_le_one_iff]; linarith
    have er0 := Real.exp_pos (-val r)
    have hs2 : (s : ℝ) + 1 ≤ 2 ^ s := by
      have : s + 1 ≤ 2 ^ s := Nat.lt_two_pow_self
      exact_mod_cast this
    have hp : (1 : ℝ) ≤ 2 ^ s := one_le_pow₀ (by norm_num)
    generalize Real.exp (-val x) = X at *
    generalize Real.exp (-val r) = R at *
    generalize Real.exp (-δ) = D at *
    generalize (2 : ℝ) ^ s = H at *
    generalize val ccs = C at *
    have hD : |D - 1| ≤ 2 * (H / 2 ^ 52) := by
      refine hδe.trans ?_
      have : ((s : ℝ) + 1) / 2 ^ 52 ≤ H / 2 ^ 52 := div_le_div_of_nonneg_right hs2 (by norm_num)
      linarith
    have hRD : |C * R * (D - 1)| ≤ 2 * (H / 2 ^ 52) := by
      rw [abs_mul, abs_of_nonneg (mul_nonneg (by linarith) er0.le)]
      have : C * R ≤ 1 * 1 := mul_le_mul c1.le er1 er0.le (by norm_num)
      have := mul_le_mul this hD (abs_nonneg _) (by norm_num)
      linarith
    have key : |(z : ℝ) * H - 2 ^ 64 * (C * X * H)| ≤ 2 ^ 15 * H := by
      have e : C * X * H = C * R * (D - 1) + C * R := by rw [mul_assoc, hexp]; ring
      rw [e]
      rw [abs_le] at hRD a1 ⊢
      obtain ⟨u1, u2⟩ := hRD
      obtain ⟨w1, w2⟩ := a1
      norm_num at *
      constructor <;> linarith
    have : (z : ℝ) / 2 ^ 64 - C * X = ((z : ℝ) * H - 2 ^ 64 * (C * X * H)) / (2 ^ 64 * H) := by
      have : H ≠ 0 := by linarith
      field_simp
    rw [this, abs_div, abs_of_pos (show (0 : ℝ) < 2 ^ 64 * H by positivity), div_le_iff₀ (by positivity)]
    refine key.trans (le_of_eq ?_)
    ring
  · rw [show min s 63 = 63 by omega]
    have hz : (((expm63 r ccs <<< 1) - 1#64) >>> 63).toNat ≤ 1 := by
      rw [toNat_shr]
      have := ((expm63 r ccs <<< 1) - 1#64).isLt
      omega
    generalize (((expm63 r ccs <<< 1) - 1#64) >>> 63).toNat = z at *
    obtain ⟨l1, l2, i1, i2, li⟩ := log2_range
    have hz0 : (0 : ℝ) ≤ z := Nat.cast_nonneg _
    have hz1 : (z : ℝ) ≤ 1 := by exact_mod_cast hz
    have hxi : 0 ≤ val x * val invLog2 := mul_nonneg h0 (by norm_num at i1; linarith)
    have hf := fl_err (val x * val invLog2)
    rw [abs_of_nonneg hxi] at hf
    have hfu := (abs_le.1 hf).2
    have h63 : (63 : ℝ) ≤ s := by exact_mod_cast hs
    have hxi2 : val x * val invLog2 ≤ val x * 1.45 := mul_le_mul_of_nonneg_left i2 h0
    have t := tiny
    have hX : 62 * Real.log 2 ≤ val x := by
      have := Real.log_two_lt_d9
      norm_num at hxi2 this t hfu ⊢
      linarith
    have hE : Real.exp (-val x) ≤ (1 / 2) ^ 62 := by
      have h2 : (1 / 2 : ℝ) ^ 62 = Real.exp (-(62 * Real.log 2)) := by
        rw [show -(62 * Real.log 2) = ((62 : ℕ) : ℝ) * (-Real.log 2) by push_cast; ring, Real.exp_nat_mul, Real.exp_neg, Real.exp_log (by norm_num)]; norm_num
      rw [h2]
      exact Real.exp_le_exp.2 (by linarith)
    have hCE : val ccs * Real.exp (-val x) ≤ 1 * (1 / 2) ^ 62 := mul_le_mul c1.le hE hE0.le (by norm_num)
    have hCE0 : 0 ≤ val ccs * Real.exp (-val x) := mul_nonneg (by linarith) hE0.le
    rw [abs_le]
    norm_num at hCE ⊢
    constructor <;> linarith

end Verif.CRef.SignSampler
