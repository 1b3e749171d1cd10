import Verif.CRef.FprAdd

/-! # C99: conversion to integers, halving, doubling, comparison -/

namespace Verif.CRef.Fpr

/-- The mantissa at bit 62, as the conversions to integers form it. -/
theorem mant62 (x : W) : (((x <<< 10) ||| (1#64 <<< 62)) &&& ((1#64 <<< 63) - 1#64)).toNat = (2 ^ 52 + mant x) * 2 ^ 10 := by
  rw [toNat_mag, BitVec.toNat_or, Nat.or_mod_two_pow, BitVec.toNat_shiftLeft, Nat.shiftLeft_eq, show (1#64 <<< 62).toNat % 2 ^ 63 = 2 ^ 62 by decide]
  obtain ⟨h1, h2, h3, h4⟩ := fields x
  obtain ⟨b, hb⟩ : ∃ b, expo x % 2 = b := ⟨_, rfl⟩
  have ha : x.toNat * 2 ^ 10 % 2 ^ 64 % 2 ^ 63 = b * 2 ^ 62 + mant x * 2 ^ 10 := by omega
  rw [ha]
  have : b = 0 ∨ b = 1 := by omega
  rcases this with rfl | rfl
  · rw [Nat.zero_mul, Nat.zero_add, Nat.or_comm, or_add _ _ 62 (by omega) (by norm_num)]; ring
  · rw [Nat.one_mul, ← or_add (2 ^ 62) _ 62 (by omega) (by norm_num), Nat.or_comm, ← Nat.or_assoc, Nat.or_self, or_add _ _ 62 (by omega) (by norm_num)]; ring

theorem expo32 (x : W) : ((x >>> 52).setWidth 32 &&& 0x7FF#32).toNat = expo x := by
  rw [BitVec.toNat_and, BitVec.toNat_setWidth, toNat_shr, show (0x7FF#32).toNat = 2 ^ 11 - 1 from rfl, and_mask]
  have := x.isLt
  unfold expo; omega

theorem sgn_bit (x : W) : x >>> 63 = BitVec.ofNat 64 (decide (sgn x = 1)).toNat := by
  apply BitVec.eq_of_toNat_eq
  rw [toNat_sgn]
  have := (fields x).2.1
  by_cases c : sgn x = 1
  · rw [decide_eq_true c]; exact c
  · rw [decide_eq_false c]; show _ = 0; omega

/-- Conditional negation. -/
theorem negate (m : W) (b : Bool) : (m ^^^ -(BitVec.ofNat 64 b.toNat)) + BitVec.ofNat 64 b.toNat = if b then -m else m := by
  cases b
  · simp
  · show (m ^^^ -(1#64)) + 1#64 = -m
    rw [show -(1#64) = BitVec.allOnes 64 by decide, BitVec.xor_allOnes, BitVec.neg_eq_not_add]

theorem int64_neg (m : W) (h : m.toNat < 2 ^ 63) : int64 (-m) = -(m.toNat : ℤ) := by
  unfold int64
  rw [BitVec.toNat_neg]
  by_cases c : m.toNat = 0
  · rw [c]; norm_num
  · rw [if_neg (by omega)]; omega

theorem int64_signed (m x : W) (h : m.toNat < 2 ^ 63) : int64 ((m ^^^ -(x >>> 63)) + (x >>> 63)) = (-1) ^ sgn x * (m.toNat : ℤ) := by
  rw [sgn_bit, negate]
  have := (fields x).2.1
  by_cases c : sgn x = 1
  · rw [decide_eq_true c, c]
    simp only [if_true, pow_one]
    rw [int64_neg m h]; ring
  · rw [decide_eq_false c, show sgn x = 0 by omega]
    simp only [Bool.false_eq_true, if_false, pow_zero, one_mul]
    unfold int64
    rw [if_pos h]

/-- The value by the mantissa at bit 62. -/
theorem val62 (x : W) (h : expo x ≠ 0) (e : ℤ) (he : e = 1085 - expo x) : val x = (-1) ^ sgn x * ((((2 ^ 52 + mant x) * 2 ^ 10 : ℕ) : ℝ) * (2 : ℝ) ^ (-e)) := by
  rw [val_ne x h, he]
  have : (2 : ℝ) ^ ((expo x : ℤ) - 1075) = (2 : ℝ) ^ (10 : ℕ) * (2 : ℝ) ^ (-(1085 - (expo x : ℤ))) := by
    rw [← zpow_natCast, ← zpow_add₀ (by norm_num)]; congr 1; push_cast; ring
  rw [this]; push_cast; ring

theorem abs_sign (s : ℕ) (r : ℝ) (hr : 0 ≤ r) : |(-1 : ℝ) ^ s * r| = r := by
  rw [abs_mul, abs_pow, abs_neg, abs_one, one_pow, one_mul, abs_of_nonneg hr]

/-- Below `2^63` the shift count is not negative. -/
theorem expo_le (x : W) (h : |val x| < 2 ^ 63) : expo x ≤ 1085 := by
  by_contra hc
  have := val_ge x (by omega)
  have h2 : (2 : ℝ) ^ (63 : ℕ) ≤ (2 : ℝ) ^ ((expo x : ℤ) - 1023) := by
    rw [← zpow_natCast]; exact zpow_le_zpow_right₀ (by norm_num) (by push_cast; omega)
  linarith

/-- Numbers with an exponent field below 1022 are below one half. -/
theorem val_small (x : W) (h : expo x ≤ 1021) : |val x| < 1 / 2 := by
  by_cases hz : expo x = 0
  · rw [val_eq_zero x hz]; norm_num
  · rw [val_ne x hz, abs_sign _ _ (by positivity)]
    have mx := (fields x).2.2.2
    have h1 : ((2 ^ 52 + mant x : ℕ) : ℝ) < (2 : ℝ) ^ (53 : ℕ) := by
      have : 2 ^ 52 + mant x < 2 ^ 53 := by omega
      exact_mod_cast this
    have h2 : (2 : ℝ) ^ ((expo x : ℤ) - 1075) ≤ (2 : ℝ) ^ (-54 : ℤ) := zpow_le_zpow_right₀ (by norm_num) (by omega)
    calc ((2 ^ 52 + mant x : ℕ) : ℝ) * (2 : ℝ) ^ ((expo x : ℤ) - 1075) < (2 : ℝ) ^ (53 : ℕ) * (2 : ℝ) ^ (-54 : ℤ) := mul_lt_mul h1 h2 (by positivity) (by positivity)
      _ = 1 / 2 := by rw [← zpow_natCast, ← zpow_add₀ (by norm_num)]; norm_num

theorem rne_sign (s : ℕ) (r : ℝ) : rne ((-1) ^ s * r) = (-1) ^ s * rne r := by
  rcases Nat.even_or_odd s with h | h
  · rw [h.neg_one_pow, h.neg_one_pow]; simp
  · rw [h.neg_one_pow, h.neg_one_pow, neg_one_mul, neg_one_mul, rne_neg]

/-- **C99**: `fpr_rint` is the nearest integer, ties to even. -/
theorem C99_rint (x : W) (h : |val x| < 2 ^ 63) : int64 (rint x) = rne (val x) := by
  have hexp := expo_le x h
  unfold rint
  simp only
  have hm := mant62 x
  have mx := (fields x).2.2.2
  obtain ⟨m, hm'⟩ : ∃ m, ((x <<< 10) ||| (1#64 <<< 62)) &&& ((1#64 <<< 63) - 1#64) = m := ⟨_, rfl⟩
  rw [hm'] at hm ⊢
  rw [expo32, sign32 _ (by omega) (by omega), setWidth_bit, mask]
  by_cases far : 64 ≤ 1085 - (expo x : ℤ)
  · rw [decide_eq_false (by omega)]
    simp only [Bool.false_eq_true, if_false]
    have hs := val_small x (by omega)
    obtain ⟨e, he⟩ : ∃ e : ℕ, ((1085 - (expo x : ℤ)) % 64).toNat = e := ⟨_, rfl⟩
    have he64 : e < 64 := by omega
    rw [he, ulsh_eq _ _ (by omega), ursh_eq _ _ he64]
    have h0 : (0 : W) <<< (63 - e) = 0 := by simp
    have h1 : (0 : W) >>> e = 0 := by simp
    rw [h0, h1]
    have hr : rne (val x) = 0 := by
      have := rne_near 0 (val x) hs
      rwa [Int.cast_zero, zero_add] at this
    rw [hr]
    have h2 : ((0 : W) + BitVec.ofNat 64 ((0xC8 >>> (((0 : W) >>> 61).setWidth 32 ||| ((((0 : W).setWidth 32 ||| (((0 : W) >>> 32).setWidth 32 &&& 0x1FFFFFFF#32)) |||
        -((0 : W).setWidth 32 ||| (((0 : W) >>> 32).setWidth 32 &&& 0x1FFFFFFF#32))) >>> 31) : BitVec 32).toNat) &&& 1)) = 0#64 := by decide
    rw [h2, int64_signed _ _ (by show 0 < _; norm_num)]
    simp
  · push Not at far
    have hz : expo x ≠ 0 := by omega
    rw [decide_eq_true (by omega)]
    simp only [if_true]
    obtain ⟨e, he⟩ : ∃ e : ℕ, 1085 - (expo x : ℤ) = e := ⟨(1085 - (expo x : ℤ)).toNat, by omega⟩
    have he64 : e < 64 := by omega
    have he2 : ((1085 - (expo x : ℤ)) % 64).toNat = e := by omega
    rw [he2, ulsh_eq _ _ (by omega), ursh_eq _ _ he64]
    -- the shifted mantissa
    obtain ⟨D, hD⟩ : ∃ D, m.toNat * 2 ^ (63 - e) = D := ⟨_, rfl⟩
    obtain ⟨d, hd'⟩ : ∃ d, m <<< (63 - e) = d := ⟨_, rfl⟩
    have hd : d.toNat = D % 2 ^ 64 := by rw [← hd', BitVec.toNat_shiftLeft, Nat.shiftLeft_eq, hD]
    rw [hd']
    have hpow : 2 ^ 63 = 2 ^ e * 2 ^ (63 - e) := by rw [← pow_add]; congr 1; omega
    have hDm : D / 2 ^ 63 = m.toNat / 2 ^ e := by rw [← hD, hpow, Nat.mul_div_mul_right _ _ (by positivity)]
    -- rounding bits
    obtain ⟨M, hM⟩ : ∃ M, (D / 2 ^ 61) ||| (if D % 2 ^ 61 = 0 then 0 else 1) = M := ⟨_, rfl⟩
    have hst : Sticky M ((D : ℝ) / ((2 ^ 61 : ℕ) : ℝ)) := by rw [← hM]; exact sticky_div D (2 ^ 61) (by positivity)
    have hM4 : M / 4 = D / 2 ^ 63 := by
      rw [← hM, show (4 : ℕ) = 2 ^ 2 from rfl, ← Nat.shiftRight_eq_div_pow _ 2, Nat.shiftRight_or_distrib, Nat.shiftRight_eq_div_pow, Nat.shiftRight_eq_div_pow]
      have h1 : (if D % 2 ^ 61 = 0 then 0 else 1) / 2 ^ 2 = 0 := by split <;> rfl
      rw [h1, Nat.or_zero]; omega
    have hlow : (d.setWidth 32 ||| ((d >>> 32).setWidth 32 &&& 0x1FFFFFFF#32) : BitVec 32).toNat = 0 ↔ D % 2 ^ 61 = 0 := by
      rw [BitVec.toNat_or, Nat.or_eq_zero_iff, BitVec.toNat_setWidth, BitVec.toNat_and, BitVec.toNat_setWidth, toNat_shr, show (0x1FFFFFFF#32).toNat = 2 ^ 29 - 1 from rfl, and_mask, hd]
      omega
    obtain ⟨dd, hdd⟩ : ∃ dd, (d.setWidth 32 ||| ((d >>> 32).setWidth 32 &&& 0x1FFFFFFF#32) : BitVec 32) = dd := ⟨_, rfl⟩
    rw [hdd] at hlow ⊢
    have hf : ((d >>> 61).setWidth 32 ||| ((dd ||| -dd) >>> 31) : BitVec 32).toNat = M % 8 := by
      rw [BitVec.toNat_or, nonzero32, BitVec.toNat_setWidth, toNat_shr, hd, ← hM, show (8 : ℕ) = 2 ^ 3 from rfl, Nat.or_mod_two_pow]
      have h1 : D % 2 ^ 64 / 2 ^ 61 % 2 ^ 32 = D / 2 ^ 61 % 2 ^ 3 := by omega
      have h2 : (BitVec.ofNat 32 (decide (dd ≠ 0)).toNat).toNat = (if D % 2 ^ 61 = 0 then 0 else 1) % 2 ^ 3 := by
        by_cases c : D % 2 ^ 61 = 0
        · have : dd = 0 := BitVec.eq_of_toNat_eq (hlow.2 c)
          rw [if_pos c, this]; rfl
        · have : dd ≠ 0 := fun h0 => c (hlow.1 (by rw [h0]; rfl))
          rw [if_neg c, decide_eq_true this]; rfl
      rw [h1, h2]
    rw [hf]
    have hrb := rne_sticky M _ hst
    have hrbN : (m >>> e).toNat + ((0xC8 >>> (M % 8)) &&& 1) = roundBits M := by
      unfold roundBits; rw [hM4, hDm, toNat_shr]
    have hbit : (0xC8 >>> (M % 8)) &&& 1 ≤ 1 := by
      rw [show (1 : ℕ) = 2 ^ 1 - 1 from rfl, and_mask]; omega
    -- no overflow
    have hlt : roundBits M < 2 ^ 63 := by
      rw [← hrbN, toNat_shr]
      rcases Nat.eq_zero_or_pos e with h0 | h0
      · have hM0 : M % 8 % 4 = 0 := by
          have : D = m.toNat * 2 ^ 63 := by rw [← hD, h0]
          have h1 : D % 2 ^ 61 = 0 := by omega
          rw [← hM, if_pos h1, Nat.or_zero]; omega
        have h2 : (0xC8 >>> (M % 8)) &&& 1 = 0 := by
          have : M % 8 = 0 ∨ M % 8 = 4 := by omega
          rcases this with h | h <;> rw [h] <;> rfl
        rw [h2, h0, pow_zero, Nat.div_one, hm]; omega
      · have : m.toNat / 2 ^ e ≤ m.toNat / 2 ^ 1 := Nat.div_le_div_left (Nat.pow_le_pow_right (by norm_num) h0) (by norm_num)
        omega
    have hsum : (m >>> e + BitVec.ofNat 64 ((0xC8 >>> (M % 8)) &&& 1)).toNat = roundBits M := by
      rw [BitVec.toNat_add, BitVec.toNat_ofNat, ← hrbN]
      rw [← hrbN] at hlt
      omega
    rw [int64_signed _ _ (by rw [hsum]; exact hlt), hsum, val62 x hz e (by omega), rne_sign]
    congr 1
    rw [← hrb]
    congr 1
    rw [← hD, ← hm]
    rw [zpow_neg, zpow_natCast, Nat.cast_mul]
    have hp2 : (2 : ℝ) ^ e * (2 : ℝ) ^ (63 - e) = 4 * 2 ^ 61 := by
      have := congrArg (fun n : ℕ => (n : ℝ)) hpow
      push_cast at this
      rw [← this]; norm_num
    have p1 : (0 : ℝ) < (2 : ℝ) ^ e := by positivity
    have p2 : (0 : ℝ) < (2 : ℝ) ^ (63 - e) := by positivity
    rw [Nat.cast_pow, Nat.cast_pow, Nat.cast_ofNat]
    have hq : (2 : ℝ) ^ (63 - e) = 4 * 2 ^ 61 / (2 : ℝ) ^ e := by rw [← hp2]; field_simp
    rw [hq]
    field_simp

/-- Towards zero. -/
noncomputable def towardZero (r : ℝ) : ℤ := if 0 ≤ r then ⌊r⌋ else ⌈r⌉

theorem towardZero_sign (s : ℕ) (hs : s < 2) (r : ℝ) (hr : 0 ≤ r) : towardZero ((-1) ^ s * r) = (-1) ^ s * ⌊r⌋ := by
  unfold towardZero
  have : s = 0 ∨ s = 1 := by omega
  rcases this with rfl | rfl
  · simp [hr]
  · rw [pow_one, pow_one, neg_one_mul, neg_one_mul]
    by_cases c : r = 0
    · subst c; simp
    · have : 0 < r := lt_of_le_of_ne hr (Ne.symm c)
      rw [if_neg (by linarith), Int.ceil_neg]

theorem floor_int_shift (z : ℤ) (e : ℕ) : ⌊(z : ℝ) * ((2 : ℝ) ^ e)⁻¹⌋ = z / 2 ^ e := by
  rw [← div_eq_mul_inv, Int.floor_eq_iff]
  have hp : (0 : ℝ) < (2 : ℝ) ^ e := by positivity
  have hdm := Int.emod_add_mul_ediv z (2 ^ e)
  have h1 := Int.emod_nonneg z (b := 2 ^ e) (by positivity)
  have h2 := Int.emod_lt_of_pos z (b := 2 ^ e) (by positivity)
  have hdmR : ((z % 2 ^ e : ℤ) : ℝ) + (2 : ℝ) ^ e * ((z / 2 ^ e : ℤ) : ℝ) = z := by exact_mod_cast hdm
  have h1R : (0 : ℝ) ≤ ((z % 2 ^ e : ℤ) : ℝ) := by exact_mod_cast h1
  have h2R : ((z % 2 ^ e : ℤ) : ℝ) < (2 : ℝ) ^ e := by exact_mod_cast h2
  rw [le_div_iff₀ hp, div_lt_iff₀ hp]
  constructor <;> nlinarith

theorem floor_shift (a e : ℕ) : ⌊(a : ℝ) * (2 : ℝ) ^ (-(e : ℤ))⌋ = ((a / 2 ^ e : ℕ) : ℤ) := by
  have := floor_int_shift (a : ℤ) e
  rw [zpow_neg, zpow_natCast]
  rw [Int.cast_natCast] at this
  rw [this]
  push_cast; rfl

/-- **C99**: `fpr_trunc` drops the fractional part. -/
theorem C99_trunc (x : W) (h : |val x| < 2 ^ 63) : int64 (trunc x) = towardZero (val x) := by
  have hexp := expo_le x h
  unfold trunc
  simp only
  have hm := mant62 x
  have mx := (fields x).2.2.2
  have sx := (fields x).2.1
  obtain ⟨m, hm'⟩ : ∃ m, ((x <<< 10) ||| (1#64 <<< 62)) &&& ((1#64 <<< 63) - 1#64) = m := ⟨_, rfl⟩
  rw [hm'] at hm ⊢
  rw [expo32, sign32 _ (by omega) (by omega), setWidth_bit, mask]
  by_cases far : 64 ≤ 1085 - (expo x : ℤ)
  · rw [decide_eq_false (by omega)]
    simp only [Bool.false_eq_true, if_false]
    have hs := val_small x (by omega)
    rw [int64_signed _ _ (by show 0 < _; norm_num), val_full x, towardZero_sign _ sx _ (by positivity)]
    rw [val_full x, abs_sign _ _ (by positivity)] at hs
    rw [Int.floor_eq_zero_iff.2 ⟨by positivity, by linarith⟩]
    simp
  · push Not at far
    have hz : expo x ≠ 0 := by omega
    rw [decide_eq_true (by omega)]
    simp only [if_true]
    obtain ⟨e, he⟩ : ∃ e : ℕ, 1085 - (expo x : ℤ) = e := ⟨(1085 - (expo x : ℤ)).toNat, by omega⟩
    have he64 : e < 64 := by omega
    have he2 : ((1085 - (expo x : ℤ)) % 64).toNat = e := by omega
    rw [he2, ursh_eq _ _ he64]
    have hle : m.toNat / 2 ^ e ≤ m.toNat := Nat.div_le_self _ _
    rw [int64_signed _ _ (by rw [toNat_shr]; omega), toNat_shr, val62 x hz e (by omega), towardZero_sign _ sx _ (by positivity), floor_shift, hm]

/-- Signed right shift. -/
theorem int64_sshiftRight (a : W) (e : ℕ) : int64 (a.sshiftRight e) = int64 a / 2 ^ e := by
  have h : ∀ b : W, int64 b = b.toInt := by
    intro b
    unfold int64
    rw [BitVec.toInt_eq_toNat_cond]
    by_cases c : b.toNat < 2 ^ 63
    · rw [if_pos c, if_pos (by omega)]
    · rw [if_neg c, if_neg (by omega)]; norm_num
  rw [h, h, BitVec.toInt_sshiftRight, Int.shiftRight_eq_div_pow]
  norm_num

/-- **C99**: `fpr_floor` is the floor, except for `-0`. -/
theorem C99_floor (x : W) (h : |val x| < 2 ^ 63) (h0 : val x ≠ 0 ∨ sgn x = 0) : int64 (floor x) = ⌊val x⌋ := by
  have hexp := expo_le x h
  unfold floor
  simp only
  have hm := mant62 x
  have mx := (fields x).2.2.2
  have sx := (fields x).2.1
  obtain ⟨m, hm'⟩ : ∃ m, ((x <<< 10) ||| (1#64 <<< 62)) &&& ((1#64 <<< 63) - 1#64) = m := ⟨_, rfl⟩
  rw [hm'] at hm ⊢
  rw [expo32, sign32 _ (by omega) (by omega), setWidth_bit, condxor]
  by_cases far : 64 ≤ 1085 - (expo x : ℤ)
  · rw [decide_eq_true (by omega)]
    simp only [if_true]
    have hs := val_small x (by omega)
    rw [sgn_bit]
    by_cases c : sgn x = 1
    · rw [decide_eq_true c]
      have hv : val x ≠ 0 := by rcases h0 with h0 | h0 <;> [exact h0; omega]
      have hneg : val x < 0 := by
        rw [val_full x, c, pow_one, neg_one_mul] at hv ⊢
        have : (0 : ℝ) ≤ (fullMant x : ℝ) * (2 : ℝ) ^ ((expo x : ℤ) - 1075) := by positivity
        rcases lt_or_eq_of_le this with h1 | h1
        · linarith
        · rw [← h1] at hv; simp at hv
      rw [abs_lt] at hs
      rw [(Int.floor_eq_iff (z := -1)).2 ⟨by push_cast; linarith, by push_cast; linarith⟩]
      unfold int64
      decide
    · rw [decide_eq_false c]
      have hpos : 0 ≤ val x := by
        rw [val_full x, show sgn x = 0 by omega, pow_zero, one_mul]; positivity
      rw [abs_lt] at hs
      rw [Int.floor_eq_zero_iff.2 ⟨hpos, by linarith⟩]
      unfold int64
      decide
  · push Not at far
    have hz : expo x ≠ 0 := by omega
    rw [decide_eq_false (by omega)]
    simp only [Bool.false_eq_true, if_false]
    obtain ⟨e, he⟩ : ∃ e : ℕ, 1085 - (expo x : ℤ) = e := ⟨(1085 - (expo x : ℤ)).toNat, by omega⟩
    have he64 : e < 64 := by omega
    have he2 : ((1085 - (expo x : ℤ)) % 64).toNat = e := by omega
    rw [he2, irsh_eq _ _ he64, int64_sshiftRight, int64_signed _ _ (by omega), val62 x hz e (by omega), hm, zpow_neg, zpow_natCast]
    rw [← mul_assoc, ← floor_int_shift]
    push_cast
    rfl

/-- **C99, negation**: the floor of `-0` comes out as `-1`. -/
theorem C99_floor_false : val (1#64 <<< 63) = 0 ∧ int64 (floor (1#64 <<< 63)) = -1 :=
  ⟨val_eq_zero _ (by unfold expo; decide), by unfold int64; decide⟩

/-! ## Halving and doubling -/

/-- **C99**: `fpr_half` halves exactly, where the half is a zero or a normal number. -/
theorem C99_half (x : W) (hx : Ok x) (h : val x = 0 ∨ (2 : ℝ) ^ (-1021 : ℤ) ≤ |val x|) : Ok (half x) ∧ val (half x) = val x / 2 := by
  obtain ⟨f1, f2, f3, f4⟩ := fields x
  unfold half
  simp only
  by_cases hz : expo x = 0
  · have hm := hx.2 hz
    have hs : (x - (1#64 <<< 52)).toNat = (sgn x * 2 ^ 63 + 2 ^ 64 - 2 ^ 52) % 2 ^ 64 := by
      rw [BitVec.toNat_sub, toNat_one_shl52, f1, hz, hm]; omega
    have he : ((((x - (1#64 <<< 52)) >>> 52).setWidth 32 &&& 0x7FF#32) + 1#32) >>> 11 = BitVec.ofNat 32 true.toNat := by
      apply BitVec.eq_of_toNat_eq
      rw [BitVec.toNat_ushiftRight, BitVec.toNat_add, expo32]
      unfold expo
      rw [hs, Nat.shiftRight_eq_div_pow]
      show _ = 1
      rw [show (1#32).toNat = 1 from rfl]
      omega
    rw [he, setWidth_bit, mask']
    simp only [if_true]
    obtain ⟨z1, z2, _⟩ := ok_zero (0 : W) 0 rfl
    exact ⟨z1, by rw [z2, val_eq_zero x hz]; norm_num⟩
  · have hge : 2 ≤ expo x := by
      by_contra hc
      have h1 : expo x = 1 := by omega
      rcases h with h | h
      · have := val_ge x hz
        rw [h, abs_zero] at this
        exact absurd this (not_le.2 (by positivity))
      · rw [val_ne x hz, abs_sign _ _ (by positivity), h1] at h
        have h2 : ((2 ^ 52 + mant x : ℕ) : ℝ) < (2 : ℝ) ^ (53 : ℕ) := by
          have : 2 ^ 52 + mant x < 2 ^ 53 := by omega
          exact_mod_cast this
        have h3 : (2 : ℝ) ^ (-1021 : ℤ) = (2 : ℝ) ^ (53 : ℕ) * (2 : ℝ) ^ (((1 : ℕ) : ℤ) - 1075) := by
          rw [← zpow_natCast, ← zpow_add₀ (by norm_num)]; norm_num
        rw [h3] at h
        exact absurd h (not_le.2 (mul_lt_mul_of_pos_right h2 (by positivity)))
    have hs : (x - (1#64 <<< 52)).toNat = sgn x * 2 ^ 63 + (expo x - 1) * 2 ^ 52 + mant x := by
      rw [BitVec.toNat_sub, toNat_one_shl52, f1]; omega
    obtain ⟨g1, g2, g3⟩ := fields_of _ _ _ _ (by omega) f4 hs
    have he : ((((x - (1#64 <<< 52)) >>> 52).setWidth 32 &&& 0x7FF#32) + 1#32) >>> 11 = BitVec.ofNat 32 false.toNat := by
      apply BitVec.eq_of_toNat_eq
      rw [BitVec.toNat_ushiftRight, BitVec.toNat_add, expo32, g2, Nat.shiftRight_eq_div_pow]
      show _ = 0
      rw [show (1#32).toNat = 1 from rfl]
      omega
    rw [he, setWidth_bit, mask']
    simp only [Bool.false_eq_true, if_false]
    refine ⟨⟨by rw [g2]; omega, fun h => by rw [g2] at h; omega⟩, ?_⟩
    rw [val_ne _ (by rw [g2]; omega), val_ne x hz, g1, g2, g3, show ((expo x - 1 : ℕ) : ℤ) - 1075 = (expo x : ℤ) - 1075 - 1 by omega, zpow_sub_one₀ (by norm_num)]
    ring

/-- **C99, negation**: half of `3·2^-1023` is a word that is neither a zero nor a normal number. -/
theorem C99_half_false : Ok 0x0018000000000000#64 ∧ ¬ Ok (half 0x0018000000000000#64) := by
  unfold Ok expo mant; decide

/-- **C99**: `fpr_double` doubles exactly, where there is no overflow. -/
theorem C99_double (x : W) (hx : Ok x) (h : |val x| < 2 ^ 1023) : Ok (double x) ∧ val (double x) = 2 * val x := by
  obtain ⟨f1, f2, f3, f4⟩ := fields x
  unfold double
  by_cases hz : expo x = 0
  · have he : (((((x >>> 52).setWidth 32 &&& 0x7FF#32) + 0x7FF#32) >>> 11 : BitVec 32).setWidth 64 <<< 52) = 0 := by
      apply BitVec.eq_of_toNat_eq
      rw [BitVec.toNat_shiftLeft, BitVec.toNat_setWidth, BitVec.toNat_ushiftRight, BitVec.toNat_add, expo32, hz]
      rfl
    rw [he, show x + (0 : W) = x by simp]
    exact ⟨hx, by rw [val_eq_zero x hz]; norm_num⟩
  · have hle : expo x ≤ 2045 := by
      by_contra hc
      have h1 := val_ge x hz
      have h2 : (2 : ℝ) ^ (1023 : ℕ) ≤ (2 : ℝ) ^ ((expo x : ℤ) - 1023) := by
        rw [← zpow_natCast]; exact zpow_le_zpow_right₀ (by norm_num) (by push_cast; omega)
      exact absurd h (not_lt.2 (le_trans h2 h1))
    have he : (((((x >>> 52).setWidth 32 &&& 0x7FF#32) + 0x7FF#32) >>> 11 : BitVec 32).setWidth 64 <<< 52).toNat = 2 ^ 52 := by
      have h1 : ((((x >>> 52).setWidth 32 &&& 0x7FF#32) + 0x7FF#32) >>> 11 : BitVec 32) = 1#32 := by
        apply BitVec.eq_of_toNat_eq
        rw [BitVec.toNat_ushiftRight, BitVec.toNat_add, expo32, Nat.shiftRight_eq_div_pow, show (0x7FF#32).toNat = 2047 from rfl]
        show _ = 1
        omega
      rw [h1]; rfl
    obtain ⟨c, hc⟩ : ∃ c : W, (((((x >>> 52).setWidth 32 &&& 0x7FF#32) + 0x7FF#32) >>> 11 : BitVec 32).setWidth 64 <<< 52) = c := ⟨_, rfl⟩
    rw [hc] at he ⊢
    have hs : (x + c).toNat = sgn x * 2 ^ 63 + (expo x + 1) * 2 ^ 52 + mant x := by
      rw [BitVec.toNat_add, he, f1]; omega
    obtain ⟨g1, g2, g3⟩ := fields_of _ _ _ _ (by omega) f4 hs
    refine ⟨⟨by rw [g2]; omega, fun h => by rw [g2] at h; omega⟩, ?_⟩
    rw [val_ne _ (by rw [g2]; omega), val_ne x hz, g1, g2, g3, show ((expo x + 1 : ℕ) : ℤ) - 1075 = (expo x : ℤ) - 1075 + 1 by push_cast; ring, zpow_add_one₀ (by norm_num)]
    ring

/-! ## Comparison -/

/-- Magnitudes are ordered like the words. -/
theorem mag_lt (x y : W) (hx : Ok x) (hy : Ok y) : |val x| < |val y| ↔ x.toNat % 2 ^ 63 < y.toNat % 2 ^ 63 := by
  have key : ∀ a b : W, Ok a → Ok b → a.toNat % 2 ^ 63 < b.toNat % 2 ^ 63 → |val a| < |val b| := by
    intro a b ha hb h
    obtain ⟨a1, a2, a3, a4⟩ := fields a
    obtain ⟨b1, b2, b3, b4⟩ := fields b
    have hb0 : expo b ≠ 0 := fun h0 => by have := hb.2 h0; omega
    by_cases ha0 : expo a = 0
    · rw [val_eq_zero a ha0, abs_zero]
      exact lt_of_lt_of_le (by positivity) (val_ge b hb0)
    · rw [val_ne a ha0, val_ne b hb0, abs_sign _ _ (by positivity), abs_sign _ _ (by positivity)]
      by_cases he : expo a = expo b
      · rw [he]
        apply mul_lt_mul_of_pos_right _ (by positivity)
        have : 2 ^ 52 + mant a < 2 ^ 52 + mant b := by omega
        exact_mod_cast this
      · have hlt : expo a + 1 ≤ expo b := by omega
        have h1 : ((2 ^ 52 + mant a : ℕ) : ℝ) < (2 : ℝ) ^ (53 : ℕ) := by
          have : 2 ^ 52 + mant a < 2 ^ 53 := by omega
          exact_mod_cast this
        have h2 : (2 : ℝ) ^ (52 : ℕ) ≤ ((2 ^ 52 + mant b : ℕ) : ℝ) := by
          have : 2 ^ 52 ≤ 2 ^ 52 + mant b := by omega
          exact_mod_cast this
        have h3 : (2 : ℝ) ^ ((expo a : ℤ) - 1075) * 2 ≤ (2 : ℝ) ^ ((expo b : ℤ) - 1075) := by
          rw [← zpow_add_one₀ (by norm_num)]
          exact zpow_le_zpow_right₀ (by norm_num) (by omega)
        have p1 : (0 : ℝ) < (2 : ℝ) ^ ((expo a : ℤ) - 1075) := by positivity
        calc ((2 ^ 52 + mant a : ℕ) : ℝ) * (2 : ℝ) ^ ((expo a : ℤ) - 1075) < (2 : ℝ) ^ (53 : ℕ) * (2 : ℝ) ^ ((expo a : ℤ) - 1075) := mul_lt_mul_of_pos_right h1 p1
          _ = (2 : ℝ) ^ (52 : ℕ) * ((2 : ℝ) ^ ((expo a : ℤ) - 1075) * 2) := by ring
          _ ≤ _ := mul_le_mul h2 h3 (by positivity) (by positivity)
  constructor
  · intro h
    by_contra hc
    rcases lt_or_eq_of_le (not_lt.1 hc) with h1 | h1
    · exact absurd (key y x hy hx h1) (not_lt.2 h.le)
    · obtain ⟨a1, a2, a3, a4⟩ := fields x
      obtain ⟨b1, b2, b3, b4⟩ := fields y
      have e1 : expo x = expo y := by omega
      have e2 : mant x = mant y := by omega
      have : |val x| = |val y| := by
        rw [val_full x, val_full y, abs_sign _ _ (by positivity), abs_sign _ _ (by positivity)]
        unfold fullMant
        rw [e1, e2]
      linarith
  · exact key x y hx hy

theorem val_nonneg (x : W) (h : sgn x = 0) : val x = |val x| := by
  rw [val_full x, abs_sign _ _ (by positivity), h, pow_zero, one_mul]

theorem val_nonpos (x : W) (h : sgn x = 1) : val x = -|val x| := by
  rw [val_full x, abs_sign _ _ (by positivity), h, pow_one, neg_one_mul]

/-- **C99**: `fpr_lt` compares the values, but puts `-0` below `+0`. -/
theorem C99_lt (x y : W) (hx : Ok x) (hy : Ok y) : lt x y = true ↔ val x < val y ∨ (val x = 0 ∧ val y = 0 ∧ sgn x = 1 ∧ sgn y = 0) := by
  have hab := mag_lt x y hx hy
  have hba := mag_lt y x hy hx
  have xl := x.isLt
  have yl := y.isLt
  have sx : sgn x = 0 ∨ sgn x = 1 := by have := (fields x).2.1; omega
  have sy : sgn y = 0 ∨ sgn y = 1 := by have := (fields y).2.1; omega
  have hxi : x.toInt = if sgn x = 0 then (x.toNat : ℤ) else (x.toNat : ℤ) - 2 ^ 64 := by
    rw [BitVec.toInt_eq_toNat_cond]
    by_cases c : sgn x = 0
    · rw [if_pos c, if_pos (by unfold sgn at c; omega)]
    · rw [if_neg c, if_neg (by unfold sgn at c; omega)]; norm_num
  have hyi : y.toInt = if sgn y = 0 then (y.toNat : ℤ) else (y.toNat : ℤ) - 2 ^ 64 := by
    rw [BitVec.toInt_eq_toNat_cond]
    by_cases c : sgn y = 0
    · rw [if_pos c, if_pos (by unfold sgn at c; omega)]
    · rw [if_neg c, if_neg (by unfold sgn at c; omega)]; norm_num
  have hand : ((x &&& y) >>> 63).toNat = sgn x * sgn y := by
    rw [BitVec.toNat_ushiftRight, BitVec.toNat_and, Nat.shiftRight_and_distrib, Nat.shiftRight_eq_div_pow, Nat.shiftRight_eq_div_pow]
    show sgn x &&& sgn y = _
    rcases sx with h | h <;> rcases sy with h' | h' <;> rw [h, h'] <;> rfl
  unfold lt
  simp only
  rw [hand]
  have ax := abs_nonneg (val x)
  have ay := abs_nonneg (val y)
  have rx : x.toNat = sgn x * 2 ^ 63 + x.toNat % 2 ^ 63 := by unfold sgn; omega
  have ry : y.toNat = sgn y * 2 ^ 63 + y.toNat % 2 ^ 63 := by unfold sgn; omega
  rcases sx with h | h <;> rcases sy with h' | h'
  · rw [h] at rx
    rw [h'] at ry
    rw [if_pos h] at hxi
    rw [if_pos h'] at hyi
    rw [h, h', val_nonneg x h, val_nonneg y h', hab]
    simp only [Nat.mul_zero, Nat.and_zero, Nat.xor_zero]
    by_cases c : x.toInt < y.toInt
    · rw [if_pos c]
      exact ⟨fun _ => .inl (by omega), fun _ => rfl⟩
    · rw [if_neg c]
      exact ⟨fun h => absurd h (by decide), fun h => h.elim (fun h => by omega) (fun h => absurd h.2.2.1 (by norm_num))⟩
  · rw [h] at rx
    rw [h'] at ry
    rw [if_pos h] at hxi
    rw [if_neg (by omega)] at hyi
    rw [h, h', val_nonneg x h, val_nonpos y h']
    simp only [Nat.zero_mul, Nat.and_zero, Nat.xor_zero]
    rw [if_neg (show ¬ x.toInt < y.toInt by omega)]
    exact ⟨fun h => absurd h (by decide), fun h => h.elim (fun h => by linarith) (fun h => absurd h.2.2.1 (by norm_num))⟩
  · rw [h] at rx
    rw [h'] at ry
    rw [if_neg (by omega)] at hxi
    rw [if_pos h'] at hyi
    rw [h, h', val_nonpos x h, val_nonneg y h']
    simp only [Nat.mul_zero, Nat.and_zero, Nat.xor_zero]
    rw [if_pos (show x.toInt < y.toInt by omega)]
    refine ⟨fun _ => ?_, fun _ => rfl⟩
    by_cases c : |val x| = 0 ∧ |val y| = 0
    · right; rw [c.1, c.2]; simp
    · left
      rcases lt_or_eq_of_le ax with h1 | h1
      · linarith
      · rcases lt_or_eq_of_le ay with h2 | h2
        · linarith
        · exact absurd ⟨h1.symm, h2.symm⟩ c
  · rw [h] at rx
    rw [h'] at ry
    rw [if_neg (by omega)] at hxi
    rw [if_neg (by omega)] at hyi
    rw [h, h', val_nonpos x h, val_nonpos y h', neg_lt_neg_iff, hba]
    rcases lt_trichotomy x.toInt y.toInt with c | c | c
    · rw [if_pos c, if_neg (show ¬ x.toInt > y.toInt by omega)]
      exact ⟨fun h => absurd h (by decide), fun h => h.elim (fun h => by omega) (fun h => absurd h.2.2.2 (by norm_num))⟩
    · rw [if_neg (show ¬ x.toInt < y.toInt by omega), if_neg (show ¬ x.toInt > y.toInt by omega)]
      exact ⟨fun h => absurd h (by decide), fun h => h.elim (fun h => by omega) (fun h => absurd h.2.2.2 (by norm_num))⟩
    · rw [if_neg (show ¬ x.toInt < y.toInt by omega), if_pos c]
      exact ⟨fun _ => .inl (by omega), fun _ => rfl⟩

/-- **C99, negation**: `-0 < +0`. -/
theorem C99_lt_false : val (1#64 <<< 63) = 0 ∧ val 0#64 = 0 ∧ lt (1#64 <<< 63) 0#64 = true :=
  ⟨val_eq_zero _ (by unfold expo; decide), val_eq_zero _ (by unfold expo; decide), by decide⟩

end Verif.CRef.Fpr
