import Verif.CRef.FprConv
import Verif.Falcon.Params
import Mathlib.Analysis.Complex.ExponentialBounds

/-! # C100: the constants of `fpr.h` -/

namespace Verif.CRef.Fpr

/-- fpr.h 227-229. -/
def fprQ : W := 4667981563525332992
def fprInverseOfQ : W := 4545632735260551042
def fprInv2sqrsigma0 : W := 4594603506513722306

/-- `fpr_inv_sigma`, fpr.h 230-242. -/
def fprInvSigma : List W := [0, 4574611497772390042, 4574501679055810265, 4574396282908341804, 4574245855758572086, 4574103865040221165, 4573969550563515544, 4573842244705920822,
  4573721358406441454, 4573606369665796042, 4573496814039276259]

/-- `fpr_sigma_min`, fpr.h 243-255. -/
def fprSigmaMin : List W := [0, 4607707126469777035, 4607777455861499430, 4607846828256951418, 4607949175006100261, 4608049571757433526, 4608148125896792003, 4608244935301382692,
  4608340089478362016, 4608433670533905013, 4608525754002622308]

/-- fpr.h 256-270. -/
def fprLog2 : W := 4604418534313441775
def fprInvLog2 : W := 4609176140021203710
def fprBnormMax : W := 4670353323383631276
def fprZero : W := 0
def fprOne : W := 4607182418800017408
def fprTwo : W := 4611686018427387904
def fprOnehalf : W := 4602678819172646912
def fprInvsqrt2 : W := 4604544271217802189
def fprInvsqrt8 : W := 4600040671590431693
def fprPtwo31 : W := 4746794007248502784
def fprPtwo31m1 : W := 4746794007244308480
def fprMtwo31m1 : W := 13970166044099084288
def fprPtwo63m1 : W := 4890909195324358656
def fprMtwo63m1 : W := 14114281232179134464
def fprPtwo63 : W := 4890909195324358656

/-- The value of a concrete word. -/
theorem val_word (x : W) (s e m : ℕ) (h : sgn x = s ∧ expo x = e ∧ mant x = m) (he : e ≠ 0) : val x = (-1) ^ s * (((2 ^ 52 + m : ℕ) : ℝ) * (2 : ℝ) ^ ((e : ℤ) - 1075)) := by
  rw [val_ne x (by rw [h.2.1]; exact he), h.1, h.2.1, h.2.2]

/-- Rounding of a number less than half a unit away. -/
theorem rnd_close (F : ℕ) (h1 : 2 ^ 52 < F) (h2 : F < 2 ^ 53) (k : ℤ) (r : ℝ) (h : |r / (2 : ℝ) ^ k - F| < 1 / 2) : rnd r = F * (2 : ℝ) ^ k := by
  have hu : (0 : ℝ) < (2 : ℝ) ^ k := by positivity
  obtain ⟨d, hd⟩ : ∃ d, r / (2 : ℝ) ^ k - F = d := ⟨_, rfl⟩
  rw [hd] at h
  have hr : r = (F + d) * (2 : ℝ) ^ k := by rw [← hd]; field_simp; ring
  have ha := h
  rw [abs_lt] at ha
  have g1 : (2 : ℝ) ^ 52 + 1 ≤ F := by exact_mod_cast h1
  have g2 : (F : ℝ) + 1 ≤ (2 : ℝ) ^ 53 := by exact_mod_cast h2
  rw [rnd_of_range r k, hr, mul_div_cancel_right₀ _ (ne_of_gt hu)]
  · have := rne_near (F : ℤ) d h
    rw [Int.cast_natCast] at this
    rw [this, Int.cast_natCast]
  · rw [hr, show k + 52 = k + (52 : ℕ) by push_cast; ring, zpow_add₀ (by norm_num), mul_comm, zpow_natCast]
    exact mul_le_mul_of_nonneg_right (by linarith) hu.le
  · rw [hr, show k + 53 = k + (53 : ℕ) by push_cast; ring, zpow_add₀ (by norm_num), mul_comm ((2 : ℝ) ^ k), zpow_natCast]
    exact mul_lt_mul_of_pos_right (by linarith) hu

/-- A concrete positive word is the rounding of a number. -/
theorem val_eq_rnd (x : W) (e m : ℕ) (h : sgn x = 0 ∧ expo x = e ∧ mant x = m) (he : e ≠ 0) (hm : m ≠ 0) (r : ℝ) (hr : |r / (2 : ℝ) ^ ((e : ℤ) - 1075) - ((2 ^ 52 + m : ℕ) : ℝ)| < 1 / 2) : val x = rnd r := by
  have hmx := (fields x).2.2.2
  rw [h.2.2] at hmx
  rw [val_word x 0 e m h he, rnd_close (2 ^ 52 + m) (by omega) (by omega) _ r hr, pow_zero, one_mul]

theorem fields_dec (x : W) (s e m : ℕ) (h : x.toNat / 2 ^ 63 = s ∧ x.toNat / 2 ^ 52 % 2 ^ 11 = e ∧ x.toNat % 2 ^ 52 = m) : sgn x = s ∧ expo x = e ∧ mant x = m := h

/-- **C100**: the exact constants. -/
theorem C100_exact : val fprQ = 12289 ∧ val fprZero = 0 ∧ val fprOne = 1 ∧ val fprTwo = 2 ∧ val fprOnehalf = 1 / 2 ∧ val fprPtwo31 = 2 ^ 31 ∧ val fprPtwo31m1 = 2 ^ 31 - 1 ∧
    val fprMtwo31m1 = -(2 ^ 31 - 1) ∧ val fprPtwo63 = 2 ^ 63 ∧ val fprPtwo63m1 = 2 ^ 63 ∧ val fprMtwo63m1 = -2 ^ 63 := by
  refine ⟨?_, ?_, ?_, ?_, ?_, ?_, ?_, ?_, ?_, ?_, ?_⟩
  · rw [val_word fprQ 0 1036 2252349569499136 (fields_dec _ _ _ _ (by decide)) (by norm_num)]; norm_num
  · exact val_eq_zero _ (by unfold expo; decide)
  · rw [val_word fprOne 0 1023 0 (fields_dec _ _ _ _ (by decide)) (by norm_num)]; norm_num
  · rw [val_word fprTwo 0 1024 0 (fields_dec _ _ _ _ (by decide)) (by norm_num)]; norm_num
  · rw [val_word fprOnehalf 0 1022 0 (fields_dec _ _ _ _ (by decide)) (by norm_num)]; norm_num
  · rw [val_word fprPtwo31 0 1054 0 (fields_dec _ _ _ _ (by decide)) (by norm_num)]; norm_num
  · rw [val_word fprPtwo31m1 0 1053 4503599623176192 (fields_dec _ _ _ _ (by decide)) (by norm_num)]; norm_num
  · rw [val_word fprMtwo31m1 1 1053 4503599623176192 (fields_dec _ _ _ _ (by decide)) (by norm_num)]; norm_num
  · rw [val_word fprPtwo63 0 1086 0 (fields_dec _ _ _ _ (by decide)) (by norm_num)]; norm_num
  · rw [val_word fprPtwo63m1 0 1086 0 (fields_dec _ _ _ _ (by decide)) (by norm_num)]; norm_num
  · rw [val_word fprMtwo63m1 1 1086 0 (fields_dec _ _ _ _ (by decide)) (by norm_num)]; norm_num

/-- **C100**: the rational constants are correctly rounded. -/
theorem C100_rational : val fprInverseOfQ = rnd (1 / 12289) ∧ val fprInv2sqrsigma0 = rnd (1 / (2 * 1.8205 ^ 2)) ∧ val fprBnormMax = rnd 16822.4121 := by
  refine ⟨?_, ?_, ?_⟩
  · refine val_eq_rnd fprInverseOfQ 1009 1500711243720578 (fields_dec _ _ _ _ (by decide)) (by norm_num) (by norm_num) _ ?_
    rw [abs_lt]; constructor <;> norm_num
  · refine val_eq_rnd fprInv2sqrsigma0 1020 931886595816386 (fields_dec _ _ _ _ (by decide)) (by norm_num) (by norm_num) _ ?_
    rw [abs_lt]; constructor <;> norm_num
  · refine val_eq_rnd fprBnormMax 1037 120509800426924 (fields_dec _ _ _ _ (by decide)) (by norm_num) (by norm_num) _ ?_
    rw [abs_lt]; constructor <;> norm_num

/-- A square root times a power of two, near an integer. -/
theorem sqrt_close (a : ℝ) (ha : 0 ≤ a) (F : ℕ) (hF : 1 ≤ F) (j : ℕ) (h1 : ((F : ℝ) - 1 / 2) ^ 2 < a * 4 ^ j) (h2 : a * 4 ^ j < ((F : ℝ) + 1 / 2) ^ 2) :
    |Real.sqrt a / (2 : ℝ) ^ (-(j : ℤ)) - F| < 1 / 2 := by
  have e : Real.sqrt a / (2 : ℝ) ^ (-(j : ℤ)) = Real.sqrt (a * 4 ^ j) := by
    rw [Real.sqrt_mul ha, show (4 : ℝ) ^ j = ((2 : ℝ) ^ j) ^ 2 by rw [← pow_mul, mul_comm, pow_mul]; norm_num, Real.sqrt_sq (by positivity), zpow_neg, zpow_natCast]
    field_simp
  rw [e]
  have hF1 : (1 : ℝ) ≤ F := by exact_mod_cast hF
  rw [abs_lt]
  constructor
  · have := Real.lt_sqrt_of_sq_lt h1
    linarith
  · have := (Real.sqrt_lt' (by positivity)).2 h2
    linarith

/-- **C100**: the square root constants are correctly rounded. -/
theorem C100_sqrt_const : val fprInvsqrt2 = rnd (Real.sqrt (1 / 2)) ∧ val fprInvsqrt8 = rnd (Real.sqrt (1 / 8)) := by
  constructor
  · refine val_eq_rnd fprInvsqrt2 1022 1865452045155277 (fields_dec _ _ _ _ (by decide)) (by norm_num) (by norm_num) _ ?_
    have := sqrt_close (1 / 2) (by norm_num) (2 ^ 52 + 1865452045155277) (by norm_num) 53 (by norm_num) (by norm_num)
    rwa [show (-((53 : ℕ) : ℤ)) = ((1022 : ℕ) : ℤ) - 1075 by norm_num] at this
  · refine val_eq_rnd fprInvsqrt8 1021 1865452045155277 (fields_dec _ _ _ _ (by decide)) (by norm_num) (by norm_num) _ ?_
    have := sqrt_close (1 / 8) (by norm_num) (2 ^ 52 + 1865452045155277) (by norm_num) 54 (by norm_num) (by norm_num)
    rwa [show (-((54 : ℕ) : ℤ)) = ((1021 : ℕ) : ℤ) - 1075 by norm_num] at this

/-- Seventy terms of the series of `log 2`. -/
theorem log_two_near : |Real.log 2 - 693147180559945309417232121458 / 10 ^ 30| ≤ 1 / 2 ^ 70 := by
  have t : |(2⁻¹ : ℝ)| = 2⁻¹ := by rw [abs_of_pos]; norm_num
  have z := Real.abs_log_sub_add_sum_range_le (show |(2⁻¹ : ℝ)| < 1 by rw [t]; norm_num) 72
  rw [t] at z
  norm_num1 at z
  rw [one_div (2 : ℝ), Real.log_inv, ← sub_eq_add_neg, _root_.abs_sub_comm] at z
  rw [abs_le] at z ⊢
  obtain ⟨z1, z2⟩ := z
  constructor
  · norm_num1
    norm_num1 at z1
    linarith
  · norm_num1
    linarith

/-- **C100**: `fpr_log2` and `fpr_inv_log2` are correctly rounded. -/
theorem C100_log : val fprLog2 = rnd (Real.log 2) ∧ val fprInvLog2 = rnd (1 / Real.log 2) := by
  have h := log_two_near
  rw [abs_le] at h
  obtain ⟨h1, h2⟩ := h
  have hpos : 0 < Real.log 2 := Real.log_pos (by norm_num)
  constructor
  · refine val_eq_rnd fprLog2 1022 1739715140794863 (fields_dec _ _ _ _ (by decide)) (by norm_num) (by norm_num) _ ?_
    rw [show (((1022 : ℕ) : ℤ) - 1075) = -((53 : ℕ) : ℤ) by norm_num, zpow_neg, zpow_natCast, div_inv_eq_mul, abs_lt]
    norm_num at h1 h2 ⊢
    constructor <;> linarith
  · refine val_eq_rnd fprInvLog2 1023 1993721221186302 (fields_dec _ _ _ _ (by decide)) (by norm_num) (by norm_num) _ ?_
    rw [show (((1023 : ℕ) : ℤ) - 1075) = -((52 : ℕ) : ℤ) by norm_num, zpow_neg, zpow_natCast, div_inv_eq_mul, abs_lt, div_mul_eq_mul_div, one_mul]
    constructor
    · rw [neg_lt_sub_iff_lt_add, ← sub_lt_iff_lt_add', lt_div_iff₀ hpos]
      norm_num at h1 h2 ⊢
      linarith
    · rw [sub_lt_iff_lt_add, div_lt_iff₀ hpos]
      norm_num at h1 h2 ⊢
      linarith

/-- **C100**: the tables of the C signer are the parameters of the Python signer: `1/sigma` up to a relative error `2^-50`, `sigmin` up to `2^-51`. -/
theorem C100_sigma (k : ℕ) (h1 : 1 ≤ k) (h2 : k ≤ 10) : ∃ sigma sigmin : ℚ, Falcon.sigmas (2 ^ k) = some (sigma, sigmin) ∧ |val (fprInvSigma[k]!) * (sigma : ℝ) - 1| ≤ 1 / 2 ^ 50 ∧
    |val (fprSigmaMin[k]!) - (sigmin : ℝ)| ≤ 1 / 2 ^ 51 := by
  interval_cases k
  · refine ⟨_, _, rfl, ?_, ?_⟩
    · rw [val_word _ 0 1015 3457875991336602 (fields_dec _ _ _ _ (by decide)) (by norm_num), abs_le]; constructor <;> norm_num
    · rw [val_word _ 0 1023 524707669759627 (fields_dec _ _ _ _ (by decide)) (by norm_num), abs_le]; constructor <;> norm_num
  · refine ⟨_, _, rfl, ?_, ?_⟩
    · rw [val_word _ 0 1015 3348057274756825 (fields_dec _ _ _ _ (by decide)) (by norm_num), abs_le]; constructor <;> norm_num
    · rw [val_word _ 0 1023 595037061482022 (fields_dec _ _ _ _ (by decide)) (by norm_num), abs_le]; constructor <;> norm_num
  · refine ⟨_, _, rfl, ?_, ?_⟩
    · rw [val_word _ 0 1015 3242661127288364 (fields_dec _ _ _ _ (by decide)) (by norm_num), abs_le]; constructor <;> norm_num
    · rw [val_word _ 0 1023 664409456934010 (fields_dec _ _ _ _ (by decide)) (by norm_num), abs_le]; constructor <;> norm_num
  · refine ⟨_, _, rfl, ?_, ?_⟩
    · rw [val_word _ 0 1015 3092233977518646 (fields_dec _ _ _ _ (by decide)) (by norm_num), abs_le]; constructor <;> norm_num
    · rw [val_word _ 0 1023 766756206082853 (fields_dec _ _ _ _ (by decide)) (by norm_num), abs_le]; constructor <;> norm_num
  · refine ⟨_, _, rfl, ?_, ?_⟩
    · rw [val_word _ 0 1015 2950243259167725 (fields_dec _ _ _ _ (by decide)) (by norm_num), abs_le]; constructor <;> norm_num
    · rw [val_word _ 0 1023 867152957416118 (fields_dec _ _ _ _ (by decide)) (by norm_num), abs_le]; constructor <;> norm_num
  · refine ⟨_, _, rfl, ?_, ?_⟩
    · rw [val_word _ 0 1015 2815928782462104 (fields_dec _ _ _ _ (by decide)) (by norm_num), abs_le]; constructor <;> norm_num
    · rw [val_word _ 0 1023 965707096774595 (fields_dec _ _ _ _ (by decide)) (by norm_num), abs_le]; constructor <;> norm_num
  · refine ⟨_, _, rfl, ?_, ?_⟩
    · rw [val_word _ 0 1015 2688622924867382 (fields_dec _ _ _ _ (by decide)) (by norm_num), abs_le]; constructor <;> norm_num
    · rw [val_word _ 0 1023 1062516501365284 (fields_dec _ _ _ _ (by decide)) (by norm_num), abs_le]; constructor <;> norm_num
  · refine ⟨_, _, rfl, ?_, ?_⟩
    · rw [val_word _ 0 1015 2567736625388014 (fields_dec _ _ _ _ (by decide)) (by norm_num), abs_le]; constructor <;> norm_num
    · rw [val_word _ 0 1023 1157670678344608 (fields_dec _ _ _ _ (by decide)) (by norm_num), abs_le]; constructor <;> norm_num
  · refine ⟨_, _, rfl, ?_, ?_⟩
    · rw [val_word _ 0 1015 2452747884742602 (fields_dec _ _ _ _ (by decide)) (by norm_num), abs_le]; constructor <;> norm_num
    · rw [val_word _ 0 1023 1251251733887605 (fields_dec _ _ _ _ (by decide)) (by norm_num), abs_le]; constructor <;> norm_num
  · refine ⟨_, _, rfl, ?_, ?_⟩
    · rw [val_word _ 0 1015 2343192258222819 (fields_dec _ _ _ _ (by decide)) (by norm_num), abs_le]; constructor <;> norm_num
    · rw [val_word _ 0 1023 1343335202604900 (fields_dec _ _ _ _ (by decide)) (by norm_num), abs_le]; constructor <;> norm_num

/-- **C100, negation**: in degree 512 the C constant is not the rounding of the inverse of the Python parameter: it is one unit off. -/
theorem C100_sigma_false : val (fprInvSigma[9]!) ≠ rnd (1 / (165.7366171829776 : ℝ)) := by
  have h : rnd (1 / (165.7366171829776 : ℝ)) = val (4573606369665796041 : W) := by
    symm
    refine val_eq_rnd _ 1015 2452747884742601 (fields_dec _ _ _ _ (by decide)) (by norm_num) (by norm_num) _ ?_
    rw [abs_lt]; constructor <;> norm_num
  rw [h, val_word _ 0 1015 2452747884742602 (fields_dec _ _ _ _ (by decide)) (by norm_num), val_word _ 0 1015 2452747884742601 (fields_dec _ _ _ _ (by decide)) (by norm_num)]
  norm_num

/-! ## The hypotheses are met -/

example : Ok fprQ ∧ Ok fprInverseOfQ ∧ add fprOne fprTwo = 4613937818241073152 ∧ mul fprTwo fprTwo = 4616189618054758400 ∧ div fprOne fprQ = fprInverseOfQ ∧
    inv fprQ = fprInverseOfQ ∧ div fprOne fprLog2 = fprInvLog2 ∧ sqrt fprOnehalf = fprInvsqrt2 ∧ sub fprOne fprOne = fprZero ∧ rint fprBnormMax = 16822 ∧ trunc fprBnormMax = 16822 ∧
    floor (neg fprBnormMax) = -16823 ∧ lt fprOne fprTwo = true ∧ of 12289 = fprQ ∧ half fprTwo = fprOne ∧ double fprOne = fprTwo := by
  unfold Ok expo mant
  decide +kernel

end Verif.CRef.Fpr
