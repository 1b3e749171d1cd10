import Verif.CRef.SignSamplerInt
import Verif.CRef.FprFl
import Verif.CRef.FprConst

/-! # C98, second part: range reduction and the threshold of `BerExp` -/

namespace Verif.CRef.SignSampler
open Verif.CRef Verif.CRef.Fpr

/-- Mantissas of `fpr_log2` (times `2^-53`) and `fpr_inv_log2` (times `2^-52`). -/
def mL : ℕ := 6243314768165359
def mI : ℕ := 6497320848556798

theorem val_log2 : val log2 = (mL : ℝ) * (2 : ℝ) ^ (-53 : ℤ) := by
  rw [val_word log2 0 1022 1739715140794863 (fields_dec _ _ _ _ (by decide)) (by norm_num)]; norm_num [mL]

theorem val_invLog2 : val invLog2 = (mI : ℝ) * (2 : ℝ) ^ (-52 : ℤ) := by
  rw [val_word invLog2 0 1023 1993721221186302 (fields_dec _ _ _ _ (by decide)) (by norm_num)]; norm_num [mI]

/-- The mantissa of the rounding of `k · log2`, and its exponent. -/
def shK (k : ℕ) : ℕ := Nat.log2 (k * mL) - 52
def pK (k : ℕ) : ℕ := let q := k * mL / 2 ^ shK k; if 2 ^ shK k < 2 * (k * mL % 2 ^ shK k) then q + 1 else q

/-- For every quotient `k ≤ 62`: `pK k` is the rounding of `k · log2`, and the number before it, times `inv_log2`, rounds below `k`. -/
theorem quotients : ∀ k < 63, 0 < k → 2 ^ 52 < pK k ∧ pK k < 2 ^ 53 ∧ 2 * (k * mL) < 2 * (pK k * 2 ^ shK k) + 2 ^ shK k ∧ 2 * (pK k * 2 ^ shK k) < 2 * (k * mL) + 2 ^ shK k ∧
    Nat.log2 k ≤ 5 ∧ 2 ^ Nat.log2 k ≤ k ∧ k < 2 ^ (Nat.log2 k + 1) ∧ (pK k - 1) * 2 ^ shK k * mI + 2 ^ 52 * 2 ^ Nat.log2 k < k * 2 ^ 105 := by decide +kernel

theorem mul_le_scale (a b c : ℝ) (hc : 0 < c) (h : a * c ≤ b * c) : a ≤ b := le_of_mul_le_mul_right h hc

/-- The rounding of `k · log2`. -/
theorem fl_kL (k : ℕ) (hk : k < 63) (h0 : 0 < k) : fl (k * val log2) = (pK k : ℤ) * (2 : ℝ) ^ ((shK k : ℤ) - 53) := by
  obtain ⟨q1, q2, q3, q4, -⟩ := quotients k hk h0
  rw [val_log2]
  have hkr : (1 : ℝ) ≤ k := by exact_mod_cast h0
  have e : (k : ℝ) * ((mL : ℝ) * (2 : ℝ) ^ (-53 : ℤ)) = ((k * mL : ℕ) : ℝ) * (2 : ℝ) ^ (-53 : ℤ) := by push_cast; ring
  have hpos : (0 : ℝ) < (2 : ℝ) ^ (-53 : ℤ) := by positivity
  have hbig : (1 / 2 : ℝ) ≤ (k : ℝ) * ((mL : ℝ) * (2 : ℝ) ^ (-53 : ℤ)) := by
    have : (1 / 2 : ℝ) ≤ (mL : ℝ) * (2 : ℝ) ^ (-53 : ℤ) := by norm_num [mL]
    nlinarith
  unfold fl
  rw [if_neg]
  · have hs : (2 : ℝ) ^ ((shK k : ℤ) - 53) = 2 ^ shK k * (2 : ℝ) ^ (-53 : ℤ) := by
      rw [← zpow_natCast, ← zpow_add₀ (by norm_num)]; rfl
    have q3' : 2 * ((k * mL : ℕ) : ℝ) < 2 * (pK k * 2 ^ shK k) + 2 ^ shK k := by exact_mod_cast q3
    have q4' : 2 * ((pK k : ℝ) * 2 ^ shK k) < 2 * ((k * mL : ℕ) : ℝ) + 2 ^ shK k := by exact_mod_cast q4
    rw [Int.cast_natCast]
    refine rnd_close (pK k) q1 q2 _ _ ?_
    rw [e, hs, mul_div_mul_right _ _ hpos.ne']
    have hu : (0 : ℝ) < 2 ^ shK k := by positivity
    generalize (2 : ℝ) ^ shK k = u at *
    rw [abs_lt]
    constructor
    · rw [lt_sub_iff_add_lt, lt_div_iff₀ hu]; linarith
    · rw [sub_lt_iff_lt_add, div_lt_iff₀ hu]; linarith
  · rw [abs_of_nonneg (by positivity), not_lt]
    refine le_trans ?_ hbig
    rw [show (1 / 2 : ℝ) = (2 : ℝ) ^ (-1 : ℤ) by norm_num]
    exact zpow_le_zpow_right₀ (by norm_num) (by norm_num)

/-- The remainder is not negative: for a number `X` of the format whose quotient is `k ≤ 62`, the product subtracted is at most `X`. -/
theorem reduce_nonneg (X : ℝ) (hX : Is53 X) (h0 : 0 ≤ X) (k : ℕ) (hk : k < 63) (hq : (k : ℝ) ≤ fl (X * val invLog2)) : fl (k * val log2) ≤ X := by
  rcases Nat.eq_zero_or_pos k with rfl | hpos
  · rw [Nat.cast_zero, zero_mul, fl_zero]; exact h0
  obtain ⟨q1, q2, q3, q4, q5, q6, q7, q8⟩ := quotients k hk hpos
  rw [fl_kL k hk hpos]
  by_contra hn
  push Not at hn
  have hle := is53_pred X hX (pK k) ((shK k : ℤ) - 53) (by exact_mod_cast q1) hn
  rw [show ((shK k : ℤ) - 53) = (shK k : ℤ) + (-53) by ring, zpow_add₀ (by norm_num), zpow_natCast] at hle
  -- y = X · inv_log2
  obtain ⟨y, hy⟩ : ∃ y, X * val invLog2 = y := ⟨_, rfl⟩
  rw [hy] at hq
  have hI : val invLog2 = (mI : ℝ) * (2 : ℝ) ^ (-52 : ℤ) := val_invLog2
  have hI0 : (0 : ℝ) ≤ (mI : ℝ) * (2 : ℝ) ^ (-52 : ℤ) := by positivity
  obtain ⟨j, hj⟩ : ∃ j, Nat.log2 k = j := ⟨_, rfl⟩
  rw [hj] at q5 q6 q7 q8
  have hp1 : ((pK k - 1 : ℕ) : ℝ) = (pK k : ℝ) - 1 := by rw [Nat.cast_sub (by omega)]; norm_num
  have hyl : y + (2 : ℝ) ^ j / 2 ^ 53 < k := by
    have q8' : (((pK k - 1 : ℕ) : ℝ)) * 2 ^ shK k * mI + 2 ^ 52 * 2 ^ j < k * 2 ^ 105 := by exact_mod_cast q8
    have h1 : y ≤ (((pK k - 1 : ℕ) : ℝ)) * (2 ^ shK k * (2 : ℝ) ^ (-53 : ℤ)) * ((mI : ℝ) * (2 : ℝ) ^ (-52 : ℤ)) := by
      rw [← hy, hI, hp1]
      exact mul_le_mul_of_nonneg_right (by push_cast at hle; exact hle) hI0
    have h2 : (((pK k - 1 : ℕ) : ℝ)) * (2 ^ shK k * (2 : ℝ) ^ (-53 : ℤ)) * ((mI : ℝ) * (2 : ℝ) ^ (-52 : ℤ)) = ((((pK k - 1 : ℕ) : ℝ)) * 2 ^ shK k * mI) / 2 ^ 105 := by
      rw [show (2 : ℝ) ^ (-53 : ℤ) = 1 / 2 ^ 53 by norm_num, show (2 : ℝ) ^ (-52 : ℤ) = 1 / 2 ^ 52 by norm_num]
      field_simp
    rw [h2] at h1
    generalize (((pK k - 1 : ℕ) : ℝ)) * 2 ^ shK k * mI = A at *
    rw [le_div_iff₀ (by norm_num)] at h1
    have h3 : (2 : ℝ) ^ j / 2 ^ 53 = (2 ^ 52 * 2 ^ j) / 2 ^ 105 := by
      rw [div_eq_div_iff (by norm_num) (by norm_num)]; ring
    rw [h3, ← lt_sub_iff_add_lt', ]
    rw [div_lt_iff₀ (by norm_num)]
    nlinarith
  -- the number of the format below k
  have hv : Is53 ((k : ℝ) - (2 : ℝ) ^ j / 2 ^ 52) := by
    refine ⟨(k : ℤ) * 2 ^ (52 - j) - 1, (j : ℤ) - 52, ?_, ?_⟩
    · have h52 : (2 : ℤ) ^ j * 2 ^ (52 - j) = 2 ^ 52 := by rw [← pow_add]; congr 1; omega
      have g1 : (2 : ℤ) ^ j ≤ k := by exact_mod_cast q6
      have g2 : (k : ℤ) + 1 ≤ 2 * 2 ^ j := by
        have : k + 1 ≤ 2 ^ (j + 1) := q7
        rw [pow_succ] at this
        have : ((k + 1 : ℕ) : ℤ) ≤ ((2 ^ j * 2 : ℕ) : ℤ) := by exact_mod_cast this
        push_cast at this
        linarith
      have g3 : (0 : ℤ) < 2 ^ (52 - j) := by positivity
      generalize (2 : ℤ) ^ (52 - j) = u at *
      generalize (2 : ℤ) ^ j = w at *
      rw [abs_lt]
      constructor <;> nlinarith
    · push_cast
      have e1 : (2 : ℝ) ^ ((j : ℤ) - 52) = 2 ^ j / 2 ^ 52 := by
        rw [zpow_sub₀ (by norm_num), zpow_natCast]; norm_num
      have e2 : (2 : ℝ) ^ (52 - j) * 2 ^ j = 2 ^ 52 := by rw [← pow_add]; congr 1; omega
      rw [e1, sub_mul, one_mul, mul_assoc, mul_div_assoc', e2]
      norm_num
  have hd : (0 : ℝ) < 2 ^ j / 2 ^ 52 := by positivity
  have hd2 : (2 : ℝ) ^ j / 2 ^ 53 = (2 ^ j / 2 ^ 52) / 2 := by ring
  rw [hd2] at hyl
  generalize (2 : ℝ) ^ j / 2 ^ 52 = d at *
  have hk1 : (1 : ℝ) ≤ k := by exact_mod_cast hpos
  unfold fl at hq
  split at hq
  · linarith
  · by_cases hy0 : y = 0
    · rw [hy0, rnd_zero] at hq; linarith
    have hn := ((rnd_nearest y hy0).2 _ hv).1
    have e1 : |y - rnd y| = rnd y - y := by rw [abs_sub_comm, abs_of_nonneg (by linarith)]
    rw [e1] at hn
    rcases abs_cases (y - (k - d)) with ⟨e, _⟩ | ⟨e, _⟩ <;> rw [e] at hn <;> linarith

/-! ## Words -/

theorem val_ptwo63 : val ptwo63 = 2 ^ 63 := C100_exact.2.2.2.2.2.2.2.2.1

theorem int64_nat (w : W) (n : ℕ) (h : int64 w = n) : w.toNat = n := by
  unfold int64 at h
  have := w.isLt
  split at h <;> omega

theorem zero_or_one_le (v : ℝ) (h : v = 0 ∨ 1 ≤ |v|) : v = 0 ∨ (2 : ℝ) ^ (-1022 : ℤ) ≤ |v| := by
  rcases h with h | h
  · exact .inl h
  · right
    refine le_trans ?_ h
    rw [show (1 : ℝ) = (2 : ℝ) ^ (0 : ℤ) by norm_num]
    exact zpow_le_zpow_right₀ (by norm_num) (by norm_num)

/-- `fpr_of` of a small integer is exact. -/
theorem val_of (w : W) (n : ℤ) (h : int64 w = n) (hn : |n| < 2 ^ 53) : Ok (of w) ∧ val (of w) = n := by
  have hr := C99_of w
  rw [h] at hr
  have hnr : |(n : ℝ)| < 2 ^ 53 := by exact_mod_cast hn
  have := rounded_fl _ _ hr (hnr.trans (pow_lt_pow_right₀ (by norm_num) (by norm_num)))
  rwa [fl_exact _ (is53_int n hn) (zero_or_one_le _ ?_)] at this
  by_cases c : n = 0
  · left; exact_mod_cast c
  · right
    have := Int.one_le_abs c
    exact_mod_cast this

/-- The fixed-point conversion of a number in `[0, 1)`. -/
theorem fix63 (r : W) (h0 : 0 ≤ val r) (h1 : val r < 1) : (trunc (mul r ptwo63) <<< 1).toNat = 2 * ⌊val r * 2 ^ 63⌋₊ := by
  have hm := C99_mul r ptwo63
  rw [val_ptwo63] at hm
  have hlt : val r * 2 ^ 63 < 2 ^ 63 := by
    have := mul_lt_mul_of_pos_right h1 (show (0 : ℝ) < 2 ^ 63 by positivity)
    linarith
  have hnn : 0 ≤ val r * 2 ^ 63 := by positivity
  obtain ⟨-, hv⟩ := rounded_fl _ _ hm (by rw [abs_of_nonneg hnn]; exact hlt.trans (pow_lt_pow_right₀ (by norm_num) (by norm_num)))
  have hex : fl (val r * 2 ^ 63) = val r * 2 ^ 63 := by
    apply fl_exact
    · have := is53_scale _ (is53_val r) 63
      rwa [show (2 : ℝ) ^ (63 : ℤ) = 2 ^ 63 by norm_num] at this
    · rcases val_zero_or r with h | h
      · left; rw [h, zero_mul]
      · right
        rw [abs_of_nonneg hnn]
        rw [abs_of_nonneg h0] at h
        nlinarith
  rw [hex] at hv
  have ht := C99_trunc (mul r ptwo63) (by rw [hv, abs_of_nonneg hnn]; exact hlt)
  rw [hv] at ht
  unfold towardZero at ht
  rw [if_pos hnn] at ht
  have hfl : ((⌊val r * 2 ^ 63⌋₊ : ℕ) : ℤ) = ⌊val r * 2 ^ 63⌋ := Int.natCast_floor_eq_floor hnn
  have ht2 := int64_nat _ _ (ht.trans hfl.symm)
  have hb : ⌊val r * 2 ^ 63⌋₊ < 2 ^ 63 := by
    rw [Nat.floor_lt hnn]; refine hlt.trans_eq ?_; norm_num
  rw [toNat_shl _ _ (by rw [ht2]; omega), ht2]
  omega

/-- `fpr_expm_p63` in integers. -/
theorem expm63_spec (r ccs : W) (h0 : 0 ≤ val r) (h1 : val r < 1) (c0 : 0 ≤ val ccs) (c1 : val ccs < 1) :
    ((expm63 r ccs).toNat : ℤ) = (⌊val ccs * 2 ^ 63⌋₊ * Sampler.horner (⌊val r * 2 ^ 63⌋₊ : ℕ)) / 2 ^ 63 := by
  unfold expm63
  simp only
  have e1 := fix63 r h0 h1
  have e2 := fix63 ccs c0 c1
  rw [mulHi_spec, e2, ← expmLoop_spec _ _ e1]
  generalize (expmLoop (trunc (mul r ptwo63) <<< 1)).toNat = y
  generalize ⌊val ccs * 2 ^ 63⌋₊ = t
  rw [show 2 * t * y = 2 * (t * y) by ring, ← Nat.cast_mul]
  omega

/-- `fpr_expm_p63(r, ccs)` is close to `2^63 · ccs · exp(-r)`. -/
theorem expm63_close (r ccs : W) (h0 : 0 ≤ val r) (h1 : val r ≤ 0.695) (c0 : 1 / 2 ≤ val ccs) (c1 : val ccs < 1) :
    |((expm63 r ccs).toNat : ℝ) - 2 ^ 63 * (val ccs * Real.exp (-val r))| ≤ 2 ^ 12 + 20 ∧ 1 ≤ (expm63 r ccs).toNat ∧ (expm63 r ccs).toNat < 2 ^ 63 := by
  have hs := expm63_spec r ccs h0 (by norm_num at h1; linarith) (by linarith) c1
  have hp := Sampler.poly_exp (val r) (by linarith) h1
  obtain ⟨e1, -⟩ := Sampler.exp_range (val r) (by linarith) h1
  have e2 : Real.exp (-val r) ≤ 1 := by rw [Real.exp_le_one_iff]; linarith
  have hrn : 0 ≤ val r * 2 ^ 63 := by positivity
  have hcn : 0 ≤ val ccs * 2 ^ 63 := mul_nonneg (by linarith) (by positivity)
  have f1 := Nat.floor_le hrn
  have f2 := Nat.lt_floor_add_one (val r * 2 ^ 63)
  have g1 := Nat.floor_le hcn
  have g2 := Nat.lt_floor_add_one (val ccs * 2 ^ 63)
  generalize ⌊val r * 2 ^ 63⌋₊ = t at *
  generalize ⌊val ccs * 2 ^ 63⌋₊ = k at *
  generalize (expm63 r ccs).toNat = E at *
  generalize val r = R at *
  generalize val ccs = C at *
  have hh := Sampler.horner_close (t : ℤ) R (by rw [Int.cast_natCast, abs_of_nonneg (Nat.cast_nonneg _)]; norm_num at *; linarith)
    (by rw [Int.cast_natCast, abs_le]; constructor <;> linarith) (by rw [abs_of_nonneg h0]; norm_num at *; linarith)
  have hyr := Sampler.horner_le (t : ℤ) (by positivity) (by
    have : (t : ℝ) ≤ 2 ^ 63 := by
      have : R * 2 ^ 63 ≤ 1 * 2 ^ 63 := mul_le_mul_of_nonneg_right (by norm_num at h1; linarith) (by norm_num)
      linarith
    exact_mod_cast this)
  generalize Sampler.hornerR R = P at *
  generalize Sampler.horner (t : ℤ) = y at *
  have s1 := Int.ediv_mul_le ((k : ℤ) * y) (b := 2 ^ 63) (by norm_num)
  have s2 := Int.lt_ediv_add_one_mul_self ((k : ℤ) * y) (b := 2 ^ 63) (by norm_num)
  rw [← hs] at s1 s2
  have s1' : (E : ℝ) * 2 ^ 63 ≤ k * y := by exact_mod_cast s1
  have s2' : (k : ℝ) * y < (E + 1) * 2 ^ 63 := by exact_mod_cast s2
  have y0 : (0 : ℝ) ≤ y := by exact_mod_cast hyr.1
  have y1 : (y : ℝ) ≤ 2 ^ 63 := by exact_mod_cast hyr.2
  clear hs s1 s2
  generalize Real.exp (-R) = X at *
  rw [abs_le] at hh hp
  have hp1 := hp.1
  have hp2 := hp.2
  rw [div_sub' (by norm_num), le_div_iff₀ (by norm_num)] at hp1
  rw [div_sub' (by norm_num), div_le_iff₀ (by norm_num)] at hp2
  -- y against 2^63 X
  have d1 : (y : ℝ) - 2 ^ 63 * X ≤ 2 ^ 12 + 17 := by norm_num at *; linarith [hh.2]
  have d2 : -(2 ^ 12 + 17) ≤ (y : ℝ) - 2 ^ 63 * X := by norm_num at *; linarith [hh.1]
  -- C y against k y / 2^63
  have k1 : (k : ℝ) * y ≤ C * 2 ^ 63 * y := mul_le_mul_of_nonneg_right g1 y0
  have k2 : C * 2 ^ 63 * y ≤ (k + 1) * y := mul_le_mul_of_nonneg_right g2.le y0
  have c2 : C * (y - 2 ^ 63 * X) ≤ 2 ^ 12 + 17 := by
    rcases le_total 0 ((y : ℝ) - 2 ^ 63 * X) with h | h <;> nlinarith
  have c3 : -(2 ^ 12 + 17) ≤ C * (y - 2 ^ 63 * X) := by
    rcases le_total 0 ((y : ℝ) - 2 ^ 63 * X) with h | h <;> nlinarith
  have u1 : (E : ℝ) ≤ C * y := by
    have : (E : ℝ) * 2 ^ 63 ≤ (C * y) * 2 ^ 63 := by linarith
    exact le_of_mul_le_mul_right this (by norm_num)
  have u2 : C * y ≤ E + 2 := by
    have : (C * y) * 2 ^ 63 ≤ (E + 2) * 2 ^ 63 := by linarith
    exact le_of_mul_le_mul_right this (by norm_num)
  refine ⟨?_, ?_, ?_⟩
  · rw [abs_le]; constructor <;> linarith
  · have : (1 : ℝ) ≤ E := by
      have : (1 / 2 : ℝ) * (2 ^ 63 * X) ≤ C * (2 ^ 63 * X) := mul_le_mul_of_nonneg_right c0 (by norm_num at *; linarith)
      have e3 : (1 / 4 : ℝ) ≤ X := by norm_num at e1; linarith
      linarith
    exact_mod_cast this
  · have : (E : ℝ) < 2 ^ 63 := by
      have : C * y < 2 ^ 63 := by
        rcases y0.eq_or_lt with h | h
        · rw [← h]; norm_num
        · nlinarith
      linarith
    exact_mod_cast this

end Verif.CRef.SignSampler
