import Verif.CRef.SignSamplerProps
import Verif.CRef.FprAddX

/-! # C98, last part: `sampler` is rejection sampling with the right acceptance probabilities -/

namespace Verif.CRef.SignSampler
open Verif.CRef Verif.CRef.Fpr Verif.CRef.Prng

/-! ## The centre -/

theorem expo_zero (mu : W) (hv : val mu = 0) : expo mu = 0 := by
  by_contra hc
  have := val_ge mu hc
  rw [hv, abs_zero] at this
  have : (0 : ℝ) < (2 : ℝ) ^ ((expo mu : ℤ) - 1023) := by positivity
  linarith

/-- `fpr_floor` of a word with sign and exponent field 0 is -1. -/
theorem floor_low (x : W) (he : expo x = 0) (hs : sgn x = 1) : int64 (floor x) = -1 := by
  unfold floor
  simp only
  generalize ((x <<< 10) ||| (1#64 <<< 62)) &&& ((1#64 <<< 63) - 1#64) = m
  rw [expo32, sign32 _ (by omega) (by omega), setWidth_bit, condxor, decide_eq_true (by omega)]
  simp only [if_true]
  rw [sgn_bit, decide_eq_true hs]
  unfold int64
  decide

theorem valX_ok (x : W) (h : Ok x) : valX x = val x := by
  by_cases he : expo x = 0
  · rw [val_eq_zero x he]; unfold valX mantX; rw [if_pos he, h.2 he]; simp
  · exact valX_ne x he

/-- `s = floor(mu)` as an `int`, and the remainder, in `[0, 1]` (for `mu = -0` it is 1). -/
theorem center_spec (mu : W) (hb : |val mu| < 2 ^ 31) :
    ∃ m : ℤ, (center mu).toInt = m ∧ int64 ((center mu).signExtend 64) = m ∧ |m| ≤ 2 ^ 31 ∧ 0 ≤ val mu - m ∧ val mu - m ≤ 1 ∧ 0 ≤ valX mu - m ∧ valX mu - m ≤ 1 := by
  have hf : ∃ m : ℤ, int64 (floor mu) = m ∧ 0 ≤ val mu - m ∧ val mu - m ≤ 1 ∧ 0 ≤ valX mu - m ∧ valX mu - m ≤ 1 := by
    by_cases c : val mu = 0
    · have he := expo_zero mu c
      have cl := valX_close mu
      have tn : (2 : ℝ) ^ (-1022 : ℤ) ≤ 1 := zpow_le_one_of_nonpos₀ (by norm_num) (by norm_num)
      rw [c, sub_zero] at cl
      obtain ⟨l, u⟩ := abs_le.1 cl
      have h1 := (fields mu).2.1
      have pos : 0 ≤ ((mantX mu : ℝ) * (2 : ℝ) ^ ((expo mu : ℤ) - 1075)) := by positivity
      by_cases hs : sgn mu = 0
      · refine ⟨0, ?_, by rw [c]; norm_num, by rw [c]; norm_num, ?_, by push_cast; linarith⟩
        · rw [C99_floor mu (hb.trans (by norm_num)) (.inr hs), c, Int.floor_zero]
        · rw [val_fullX, hs]; push_cast; linarith
      · refine ⟨-1, floor_low mu he (by omega), by rw [c]; norm_num, by rw [c]; norm_num, by push_cast; linarith, ?_⟩
        rw [val_fullX, show sgn mu = 1 by omega]; push_cast; linarith
    · have he : expo mu ≠ 0 := fun h => c (val_eq_zero mu h)
      rw [valX_ne mu he]
      have a : 0 ≤ val mu - ⌊val mu⌋ := by linarith [Int.floor_le (val mu)]
      have b : val mu - ⌊val mu⌋ ≤ 1 := by linarith [Int.lt_floor_add_one (val mu)]
      exact ⟨⌊val mu⌋, C99_floor mu (hb.trans (by norm_num)) (.inl c), a, b, a, b⟩
  obtain ⟨m, h1, h2, h3, h4⟩ := hf
  rw [abs_lt] at hb
  have m1 : -2 ^ 31 ≤ m := by
    have : (-2 ^ 31 - 1 : ℝ) < m := by linarith [hb.1]
    have : (-2 ^ 31 - 1 : ℤ) < m := by exact_mod_cast this
    omega
  have m2 : m < 2 ^ 31 := by
    have : (m : ℝ) < 2 ^ 31 := by linarith [hb.2]
    exact_mod_cast this
  have hfl := (floor mu).isLt
  have hc : (center mu).toNat = (floor mu).toNat % 2 ^ 32 := by unfold center; rw [BitVec.toNat_setWidth]
  have hI : (center mu).toInt = m := by
    rw [BitVec.toInt_eq_toNat_cond, hc]
    unfold int64 at h1
    split at h1 <;> split <;> omega
  refine ⟨m, hI, ?_, ?_, h2, h3, h4⟩
  · have : ((center mu).signExtend 64).toInt = m := by
      rw [BitVec.toInt_signExtend_of_le (by norm_num), hI]
    rw [BitVec.toInt_eq_toNat_cond] at this
    unfold int64
    split at this <;> split <;> omega
  · rw [abs_le]; constructor <;> omega

theorem int64_ofInt (z : ℤ) (h : |z| < 2 ^ 53) : int64 (BitVec.ofInt 64 z) = z := by
  rw [abs_lt] at h
  unfold int64
  rw [BitVec.toNat_ofInt]
  split <;> omega

theorem val_ofInt (z : ℤ) (h : |z| < 2 ^ 53) : Ok (ofInt z) ∧ val (ofInt z) = z := val_of _ z (int64_ofInt z h) h

theorem val_inv2 : 0.15 ≤ val inv2sqrsigma0 ∧ val inv2sqrsigma0 ≤ 0.151 ∧ |val inv2sqrsigma0 - 1 / (2 * 1.8205 ^ 2)| ≤ 1 / 2 ^ 53 := by
  have e : val inv2sqrsigma0 = ((2 ^ 52 + 931886595816386 : ℕ) : ℝ) * (2 : ℝ) ^ ((1020 : ℤ) - 1075) := by
    rw [val_word inv2sqrsigma0 0 1020 931886595816386 (fields_dec _ _ _ _ (by decide)) (by norm_num)]; norm_num
  rw [e, abs_le]
  refine ⟨?_, ?_, ?_, ?_⟩ <;> norm_num

/-! ## The exponent -/

theorem near (k : ℕ) (h : k < 2 ^ 20) : Is53 (k : ℝ) ∧ ((k : ℝ) = 0 ∨ (2 : ℝ) ^ (-1022 : ℤ) ≤ (k : ℝ)) := by
  refine ⟨by have := is53_int (k : ℤ) (by rw [abs_of_nonneg (by positivity)]; omega); rwa [Int.cast_natCast] at this, ?_⟩
  rcases Nat.eq_zero_or_pos k with rfl | hp
  · left; norm_num
  · right
    have : (1 : ℝ) ≤ k := by exact_mod_cast hp
    exact tiny.trans (le_trans (by norm_num) this)

theorem big_of (r : ℝ) (h : |r| ≤ 2 ^ 40) : |r| < 2 ^ 1000 := h.trans_lt (pow_lt_pow_right₀ (by norm_num) (by norm_num))

/-- The distance of the candidate to the remainder `r` in `[0, 1]` lies between `z0` and `z0 + 1`. -/
theorem candidate_abs (z0 b : ℕ) (hb : b < 2) (ρ : ℝ) (h0 : 0 ≤ ρ) (h1 : ρ ≤ 1) : (z0 : ℝ) ≤ |(candidate z0 b : ℝ) - ρ| ∧ |(candidate z0 b : ℝ) - ρ| ≤ z0 + 1 ∧
    (((candidate z0 b : ℝ) - ρ = z0 + (1 - ρ) ∧ b = 1) ∨ ((candidate z0 b : ℝ) - ρ = -(z0 + ρ) ∧ b = 0)) := by
  have hz : (0 : ℝ) ≤ z0 := Nat.cast_nonneg _
  unfold candidate
  have : b = 0 ∨ b = 1 := by omega
  rcases this with rfl | rfl
  · rw [if_pos rfl]
    have e : (((-(z0 : ℤ) : ℤ)) : ℝ) - ρ = -(z0 + ρ) := by push_cast; ring
    rw [e, abs_neg, abs_of_nonneg (by linarith)]
    exact ⟨by linarith, by linarith, .inr ⟨rfl, rfl⟩⟩
  · rw [if_neg (by norm_num)]
    have e : ((1 + (z0 : ℤ) : ℤ) : ℝ) - ρ = z0 + (1 - ρ) := by push_cast; ring
    rw [e, abs_of_nonneg (by linarith)]
    exact ⟨by linarith, by linarith, .inl ⟨rfl, rfl⟩⟩

theorem abs_fl (r : ℝ) : |fl r| = fl |r| := by
  rcases le_total 0 r with h | h
  · rw [abs_of_nonneg h, abs_of_nonneg (fl_nonneg r h)]
  · rw [abs_of_nonpos h, fl_neg, abs_of_nonpos]
    have := fl_nonneg (-r) (by linarith)
    rw [fl_neg] at this; linarith

set_option maxHeartbeats 1000000 in
/-- The rounding errors of the exponent, in reals. -/
theorem exponent_real (z0 : ℕ) (hz0 : z0 ≤ 18) (a as I : ℝ) (ha0 : (z0 : ℝ) ≤ a) (ha1 : a ≤ z0 + 1) (has0 : (z0 : ℝ) ≤ as) (has1 : as ≤ z0 + 1) (haa : |a - as| ≤ 2 / 2 ^ 53)
    (V : ℝ) (hV : val inv2sqrsigma0 ≤ V) (hV1 : V ≤ 1 / 2) (hVI : |V - I ^ 2 / 2| ≤ 1 / 2 ^ 53) (hI0 : 0 ≤ I) (hI1 : I ≤ 1) :
    0 ≤ fl (fl (fl (fl a ^ 2) * V) - fl (((z0 : ℝ) * z0) * val inv2sqrsigma0)) ∧ fl (fl (fl (fl a ^ 2) * V) - fl (((z0 : ℝ) * z0) * val inv2sqrsigma0)) ≤ 181 ∧
      0 ≤ fl (fl (fl a ^ 2) * V) ∧ fl (fl (fl a ^ 2) * V) ≤ 181 ∧ 0 ≤ fl (((z0 : ℝ) * z0) * val inv2sqrsigma0) ∧ fl (((z0 : ℝ) * z0) * val inv2sqrsigma0) ≤ 181 ∧ fl (fl a ^ 2) ≤ 361 ∧ 0 ≤ fl (fl a ^ 2) ∧ fl a ≤ 19 ∧ 0 ≤ fl a ∧
      |fl (fl (fl (fl a ^ 2) * V) - fl (((z0 : ℝ) * z0) * val inv2sqrsigma0)) - (as ^ 2 * I ^ 2 / 2 - z0 ^ 2 / (2 * 1.8205 ^ 2))| ≤ 2000 / 2 ^ 53 := by
  obtain ⟨v1, v2, v3⟩ := val_inv2
  generalize val inv2sqrsigma0 = K at *
  have t := tiny
  have n1 := near z0 (by omega)
  have n2 := near (z0 * z0) ((Nat.mul_le_mul hz0 hz0).trans_lt (by norm_num))
  have n3 := near (z0 + 1) (by omega)
  have n4 := near ((z0 + 1) * (z0 + 1)) ((Nat.mul_le_mul (Nat.succ_le_succ hz0) (Nat.succ_le_succ hz0)).trans_lt (by norm_num))
  push_cast at n2 n3 n4
  have hz : (0 : ℝ) ≤ z0 := Nat.cast_nonneg _
  have hz18 : (z0 : ℝ) ≤ 18 := by exact_mod_cast hz0
  have K0 : (0 : ℝ) ≤ K := by norm_num at v1; linarith
  generalize (z0 : ℝ) = Z at *
  -- the distance
  have D0 : Z ≤ fl a := le_fl _ _ n1.1 n1.2 ha0
  have D1 : fl a ≤ Z + 1 := fl_le _ _ (hz.trans ha0) ha1 n3.1
  have De := fl_err a
  rw [abs_of_nonneg (hz.trans ha0)] at De
  generalize fl a = D at *
  -- its square
  have q0 : Z * Z ≤ D ^ 2 := by rw [sq]; exact mul_le_mul D0 D0 hz (hz.trans D0)
  have q1 : D ^ 2 ≤ (Z + 1) * (Z + 1) := by rw [sq]; exact mul_le_mul D1 D1 (hz.trans D0) (by linarith)
  have Q0 : Z * Z ≤ fl (D ^ 2) := le_fl _ _ n2.1 n2.2 q0
  have Q1 : fl (D ^ 2) ≤ (Z + 1) * (Z + 1) := fl_le _ _ (by positivity) q1 n4.1
  have Qe := fl_err (D ^ 2)
  rw [abs_of_nonneg (show (0 : ℝ) ≤ D ^ 2 by positivity)] at Qe
  generalize fl (D ^ 2) = Q at *
  have ZZ : Z * Z ≤ 324 := (mul_le_mul hz18 hz18 hz (by norm_num)).trans_eq (by norm_num)
  have ZZ1 : (Z + 1) * (Z + 1) ≤ 361 := (mul_le_mul (show Z + 1 ≤ 19 by linarith) (show Z + 1 ≤ 19 by linarith) (by linarith) (by norm_num)).trans_eq (by norm_num)
  have ZZ0 : 0 ≤ Z * Z := by positivity
  -- the products
  have y0 : (Z * Z) * K ≤ Q * V := mul_le_mul Q0 hV K0 (by linarith)
  have y1 : Q * V ≤ 361 * (1 / 2) := mul_le_mul (by linarith) hV1 (by linarith) (by norm_num)
  have y2 : 0 ≤ (Z * Z) * K := mul_nonneg ZZ0 K0
  have Y0 := fl_mono _ _ y2 y0
  have Y1 : fl (Q * V) ≤ 181 := fl_le _ _ (by linarith) (by linarith) (by have := (near 181 (by norm_num)).1; push_cast at this; exact this)
  have Ye := fl_err (Q * V)
  rw [abs_of_nonneg (show 0 ≤ Q * V by linarith)] at Ye
  have W0 := fl_nonneg _ y2
  have We := fl_err ((Z * Z) * K)
  rw [abs_of_nonneg y2] at We
  generalize hYY : fl (Q * V) = Y at *
  generalize hWW : fl ((Z * Z) * K) = Wd at *
  have X0 := fl_nonneg (Y - Wd) (by linarith)
  have X1 : fl (Y - Wd) ≤ 181 := fl_le _ _ (by linarith) (by linarith) (by have := (near 181 (by norm_num)).1; push_cast at this; exact this)
  have Xe := fl_err (Y - Wd)
  rw [abs_of_nonneg (show 0 ≤ Y - Wd by linarith)] at Xe
  generalize fl (Y - Wd) = X at *
  refine ⟨X0, X1, by linarith, Y1, W0, by linarith, by linarith, by linarith, by linarith, by linarith, ?_⟩
  generalize (2 : ℝ) ^ (-1022 : ℤ) = ε at *
  have hu : (2 : ℝ) ^ 53 = 9007199254740992 := by norm_num
  rw [abs_le] at haa De Qe hVI Ye We Xe v3
  -- |D - as| ≤ 22 u
  have d1 : D - as ≤ 22 / 2 ^ 53 := by norm_num at *; linarith [De.2, haa.2]
  have d2 : -(22 / 2 ^ 53) ≤ D - as := by norm_num at *; linarith [De.1, haa.1]
  have s1 : |D ^ 2 - as ^ 2| ≤ 836 / 2 ^ 53 := by
    rw [show D ^ 2 - as ^ 2 = (D - as) * (D + as) by ring, abs_mul, abs_of_nonneg (show 0 ≤ D + as by linarith)]
    have : |D - as| ≤ 22 / 2 ^ 53 := abs_le.2 ⟨d2, d1⟩
    calc |D - as| * (D + as) ≤ 22 / 2 ^ 53 * 38 := mul_le_mul this (by linarith) (by linarith) (by norm_num)
      _ = 836 / 2 ^ 53 := by norm_num
  rw [abs_le] at s1
  have s2 : |Q - as ^ 2| ≤ 1200 / 2 ^ 53 := by
    rw [abs_le]
    norm_num at *
    constructor <;> linarith [s1.1, s1.2, Qe.1, Qe.2]
  -- Q V against as² I² / 2
  have as0 : 0 ≤ as := by linarith
  have as2 : as ^ 2 ≤ 361 := (pow_le_pow_left₀ as0 (show as ≤ 19 by linarith) 2).trans_eq (by norm_num)
  have s3 : |Q * V - as ^ 2 * (I ^ 2 / 2)| ≤ 961 / 2 ^ 53 := by
    have e : Q * V - as ^ 2 * (I ^ 2 / 2) = (Q - as ^ 2) * V + as ^ 2 * (V - I ^ 2 / 2) := by ring
    rw [e]
    refine (abs_add_le _ _).trans ?_
    rw [abs_mul, abs_mul, abs_of_nonneg (show 0 ≤ V by linarith), abs_of_nonneg (show 0 ≤ as ^ 2 by positivity)]
    have a1 := mul_le_mul s2 hV1 (by linarith) (by norm_num)
    have a2 := mul_le_mul as2 (abs_le.2 hVI) (abs_nonneg _) (by norm_num)
    norm_num at *
    linarith
  have s4 : |Z * Z * K - Z ^ 2 / (2 * 1.8205 ^ 2)| ≤ 324 / 2 ^ 53 := by
    rw [show Z * Z * K - Z ^ 2 / (2 * 1.8205 ^ 2) = (Z * Z) * (K - 1 / (2 * 1.8205 ^ 2)) by ring, abs_mul, abs_of_nonneg ZZ0]
    have := mul_le_mul ZZ (abs_le.2 v3) (abs_nonneg _) (by norm_num)
    norm_num at *
    linarith
  have zk : Z * Z * K ≤ 324 * 0.151 := mul_le_mul ZZ v2 K0 (by norm_num)
  rw [show as ^ 2 * I ^ 2 / 2 = as ^ 2 * (I ^ 2 / 2) by ring]
  generalize as ^ 2 * (I ^ 2 / 2) = A at *
  generalize Z ^ 2 / (2 * 1.8205 ^ 2) = B at *
  generalize Z * Z * K = ZK at *
  generalize Q * V = QV at *
  rw [abs_le] at s3 s4 ⊢
  rw [hu] at *
  norm_num at zk t
  constructor <;> linarith [s3.1, s3.2, s4.1, s4.2, Ye.1, Ye.2, We.1, We.2, Xe.1, Xe.2]

end Verif.CRef.SignSampler
