import Verif.CRef.FprBits

/-! # C99: multiplication, division and square root are correctly rounded -/

namespace Verif.CRef.Fpr

/-! ## Mantissas -/

theorem toNat_one_shl52 : (1#64 <<< 52).toNat = 2 ^ 52 := rfl

theorem toNat_mask52 (x : W) : (x &&& ((1#64 <<< 52) - 1#64)).toNat = mant x := by
  rw [BitVec.toNat_and]
  exact and_mask x.toNat 52

/-- The mantissa with the implicit bit. -/
theorem toNat_full (x : W) : ((x &&& ((1#64 <<< 52) - 1#64)) ||| (1#64 <<< 52)).toNat = 2 ^ 52 + mant x := by
  rw [BitVec.toNat_or, toNat_mask52, toNat_one_shl52, Nat.or_comm, or_add _ _ 52 (fields x).2.2.2 (by norm_num)]

theorem toNat_expo (x : W) : ((x >>> 52) &&& 0x7FF#64).toNat = expo x := by
  rw [BitVec.toNat_and, toNat_shr]
  exact and_mask _ 11

theorem toNat_sgn (x : W) : (x >>> 63).toNat = sgn x := toNat_shr x 63

theorem toNat_sgn_xor (x y : W) : ((x ^^^ y) >>> 63).toNat = (sgn x + sgn y) % 2 := by
  rw [BitVec.toNat_ushiftRight, BitVec.toNat_xor, Nat.shiftRight_xor_distrib, Nat.shiftRight_eq_div_pow, Nat.shiftRight_eq_div_pow]
  show sgn x ^^^ sgn y = _
  have h1 := (fields x).2.1
  have h2 := (fields y).2.1
  interval_cases sgn x <;> interval_cases sgn y <;> rfl

/-- The absolute value of a non-zero number. -/
theorem val_ne (x : W) (h : expo x ≠ 0) : val x = (-1) ^ sgn x * (((2 ^ 52 + mant x : ℕ) : ℝ) * (2 : ℝ) ^ ((expo x : ℤ) - 1075)) := by
  unfold val; rw [if_neg h, mul_assoc]

theorem val_eq_zero (x : W) (h : expo x = 0) : val x = 0 := by unfold val; rw [if_pos h]

theorem neg_one_pow_mod (a b : ℕ) : (-1 : ℝ) ^ ((a + b) % 2) = (-1) ^ a * (-1) ^ b := by
  rw [← pow_add, neg_one_pow_eq_pow_mod_two (n := a + b)]

/-! ## Sticky arithmetic -/

/-- Halving a sticky mantissa. -/
theorem sticky_half (m : ℕ) (R : ℝ) (h : Sticky m R) : Sticky ((m / 2) ||| (m % 2)) (R / 2) := by
  obtain ⟨h1, h2⟩ := h
  rw [abs_lt] at h1
  rcases Nat.mod_two_eq_zero_or_one m with c | c
  · have hm : m = 2 * (m / 2) := by omega
    have hR := h2 (Nat.even_iff.2 c)
    rw [c, Nat.or_zero]
    have : R / 2 = ((m / 2 : ℕ) : ℝ) := by
      have : (m : ℝ) = 2 * ((m / 2 : ℕ) : ℝ) := by exact_mod_cast hm
      linarith
    rw [this]
    exact sticky_exact _
  · have hm : (m : ℝ) = 2 * ((m / 2 : ℕ) : ℝ) + 1 := by
      have : m = 2 * (m / 2) + 1 := by omega
      exact_mod_cast this
    rw [c, or_one]
    rcases Nat.mod_two_eq_zero_or_one (m / 2) with d | d
    · rw [d]
      refine ⟨?_, fun he => absurd he (by rw [Nat.even_iff]; omega)⟩
      push_cast
      rw [abs_lt]
      constructor <;> linarith
    · rw [d]
      refine ⟨?_, fun he => absurd he (by rw [Nat.even_iff]; omega)⟩
      push_cast
      rw [abs_lt]
      constructor <;> linarith

/-- A quotient with the remainder folded into the low bit. -/
theorem sticky_div (P k : ℕ) (hk : 0 < k) : Sticky ((P / k) ||| (if P % k = 0 then 0 else 1)) ((P : ℝ) / k) := by
  have hk' : (0 : ℝ) < k := by exact_mod_cast hk
  have hd : (P : ℝ) = k * ((P / k : ℕ) : ℝ) + ((P % k : ℕ) : ℝ) := by exact_mod_cast (Nat.div_add_mod P k).symm
  have hR : (P : ℝ) / k = ((P / k : ℕ) : ℝ) + ((P % k : ℕ) : ℝ) / k := by
    rw [hd]
    field_simp
    try ring
  by_cases c : P % k = 0
  · rw [if_pos c, Nat.or_zero, hR, c]
    simp only [Nat.cast_zero, zero_div, add_zero]
    exact sticky_exact _
  · rw [if_neg c, or_one, hR]
    have h1 : (0 : ℝ) < ((P % k : ℕ) : ℝ) / k := div_pos (by exact_mod_cast Nat.pos_of_ne_zero c) hk'
    have h2 : ((P % k : ℕ) : ℝ) / k < 1 := by rw [div_lt_one hk']; exact_mod_cast Nat.mod_lt P hk
    rcases Nat.mod_two_eq_zero_or_one (P / k) with d | d
    · rw [d]
      refine ⟨?_, fun he => absurd he (by rw [Nat.even_iff]; omega)⟩
      push_cast
      rw [abs_lt]
      constructor <;> linarith
    · rw [d]
      refine ⟨?_, fun he => absurd he (by rw [Nat.even_iff]; omega)⟩
      push_cast
      rw [abs_lt]
      constructor <;> linarith

/-- The conditional halving of fpr_mul and fpr_div: from `[2^54, 2^56)` to `[2^54, 2^55)`. -/
theorem halve (q : W) (h1 : 2 ^ 54 ≤ q.toNat) (h2 : q.toNat < 2 ^ 56) (R : ℝ) (h : Sticky q.toNat R) :
    ∃ w : ℕ, (q >>> 55).toNat = w ∧ w < 2 ∧ 2 ^ 54 ≤ (q ^^^ ((q ^^^ ((q >>> 1) ||| (q &&& 1#64))) &&& -(q >>> 55))).toNat ∧
      (q ^^^ ((q ^^^ ((q >>> 1) ||| (q &&& 1#64))) &&& -(q >>> 55))).toNat < 2 ^ 55 ∧
      Sticky (q ^^^ ((q ^^^ ((q >>> 1) ||| (q &&& 1#64))) &&& -(q >>> 55))).toNat (R / (2 : ℝ) ^ w) := by
  have hq2 : ((q >>> 1) ||| (q &&& 1#64)).toNat = (q.toNat / 2) ||| (q.toNat % 2) := by
    rw [BitVec.toNat_or, toNat_shr, BitVec.toNat_and]
    congr 1
    exact and_mask q.toNat 1
  have hw : (q >>> 55).toNat = q.toNat / 2 ^ 55 := toNat_shr q 55
  by_cases c : q.toNat < 2 ^ 55
  · have hz : q >>> 55 = BitVec.ofNat 64 false.toNat := by
      apply BitVec.eq_of_toNat_eq; rw [hw]; show _ = 0; omega
    refine ⟨0, by rw [hw]; omega, by norm_num, ?_⟩
    rw [hz, condxor]
    simp only [Bool.false_eq_true, if_false, pow_zero, div_one]
    exact ⟨h1, c, h⟩
  · have hz : q >>> 55 = BitVec.ofNat 64 true.toNat := by
      apply BitVec.eq_of_toNat_eq; rw [hw]; show _ = 1; omega
    refine ⟨1, by rw [hw]; omega, by norm_num, ?_⟩
    rw [hz, condxor]
    simp only [if_true, pow_one]
    rw [hq2]
    refine ⟨?_, ?_, sticky_half _ _ h⟩
    · exact le_trans (by omega) (Nat.left_le_or)
    · exact Nat.or_lt_two_pow (n := 55) (by omega) (by omega)

/-! ## Multiplication -/

theorem low25 (x : W) : (x.setWidth 32 &&& 0x01FFFFFF#32).toNat = x.toNat % 2 ^ 25 := by
  rw [BitVec.toNat_and, BitVec.toNat_setWidth]
  rw [show (0x01FFFFFF#32).toNat = 2 ^ 25 - 1 from rfl, and_mask]
  omega

theorem low25' (x : BitVec 32) : (x &&& 0x01FFFFFF#32).toNat = x.toNat % 2 ^ 25 := by
  rw [BitVec.toNat_and]
  exact and_mask x.toNat 25

theorem high25 (x : W) (h : x.toNat < 2 ^ 57) : ((x >>> 25).setWidth 32).toNat = x.toNat / 2 ^ 25 := by
  rw [BitVec.toNat_setWidth, toNat_shr]; omega

theorem mul64 (a b : BitVec 32) : (a.setWidth 64 * b.setWidth 64).toNat = a.toNat * b.toNat := by
  rw [BitVec.toNat_mul, BitVec.toNat_setWidth, BitVec.toNat_setWidth]
  have ha := a.isLt
  have hb := b.isLt
  rw [Nat.mod_eq_of_lt (show a.toNat < 2 ^ 64 by omega), Nat.mod_eq_of_lt (show b.toNat < 2 ^ 64 by omega), Nat.mod_eq_of_lt]
  calc a.toNat * b.toNat < 2 ^ 32 * 2 ^ 32 := Nat.mul_lt_mul'' ha hb
    _ = 2 ^ 64 := by norm_num

theorem mulMant_spec (xu yu : W) (hx : xu.toNat < 2 ^ 53) (hy : yu.toNat < 2 ^ 53) :
    (mulMant xu yu).toNat = (xu.toNat * yu.toNat / 2 ^ 50) ||| (if xu.toNat * yu.toNat % 2 ^ 50 = 0 then 0 else 1) := by
  unfold mulMant
  simp only
  obtain ⟨x0, hx0⟩ : ∃ x0 : BitVec 32, xu.setWidth 32 &&& 0x01FFFFFF#32 = x0 := ⟨_, rfl⟩
  obtain ⟨x1, hx1⟩ : ∃ x1 : BitVec 32, (xu >>> 25).setWidth 32 = x1 := ⟨_, rfl⟩
  obtain ⟨y0, hy0⟩ : ∃ y0 : BitVec 32, yu.setWidth 32 &&& 0x01FFFFFF#32 = y0 := ⟨_, rfl⟩
  obtain ⟨y1, hy1⟩ : ∃ y1 : BitVec 32, (yu >>> 25).setWidth 32 = y1 := ⟨_, rfl⟩
  rw [hx0, hx1, hy0, hy1]
  have ex0 : x0.toNat = xu.toNat % 2 ^ 25 := by rw [← hx0]; exact low25 xu
  have ex1 : x1.toNat = xu.toNat / 2 ^ 25 := by rw [← hx1]; exact high25 xu (by omega)
  have ey0 : y0.toNat = yu.toNat % 2 ^ 25 := by rw [← hy0]; exact low25 yu
  have ey1 : y1.toNat = yu.toNat / 2 ^ 25 := by rw [← hy1]; exact high25 yu (by omega)
  obtain ⟨a0, ha0⟩ : ∃ a, x0.toNat = a := ⟨_, rfl⟩
  obtain ⟨a1, ha1⟩ : ∃ a, x1.toNat = a := ⟨_, rfl⟩
  obtain ⟨b0, hb0⟩ : ∃ a, y0.toNat = a := ⟨_, rfl⟩
  obtain ⟨b1, hb1⟩ : ∃ a, y1.toNat = a := ⟨_, rfl⟩
  have la0 : a0 < 2 ^ 25 := by omega
  have la1 : a1 < 2 ^ 28 := by omega
  have lb0 : b0 < 2 ^ 25 := by omega
  have lb1 : b1 < 2 ^ 28 := by omega
  obtain ⟨w1, hw1⟩ : ∃ w : W, x0.setWidth 64 * y0.setWidth 64 = w := ⟨_, rfl⟩
  obtain ⟨w2, hw2⟩ : ∃ w : W, x0.setWidth 64 * y1.setWidth 64 = w := ⟨_, rfl⟩
  obtain ⟨w3, hw3⟩ : ∃ w : W, x1.setWidth 64 * y0.setWidth 64 = w := ⟨_, rfl⟩
  obtain ⟨w4, hw4⟩ : ∃ w : W, x1.setWidth 64 * y1.setWidth 64 = w := ⟨_, rfl⟩
  have ew1 : w1.toNat = a0 * b0 := by rw [← hw1, mul64, ha0, hb0]
  have ew2 : w2.toNat = a0 * b1 := by rw [← hw2, mul64, ha0, hb1]
  have ew3 : w3.toNat = a1 * b0 := by rw [← hw3, mul64, ha1, hb0]
  have ew4 : w4.toNat = a1 * b1 := by rw [← hw4, mul64, ha1, hb1]
  have l1 : a0 * b0 < 2 ^ 50 := by calc a0 * b0 < 2 ^ 25 * 2 ^ 25 := Nat.mul_lt_mul'' la0 lb0
      _ = 2 ^ 50 := by norm_num
  have l2 : a0 * b1 < 2 ^ 53 := by calc a0 * b1 < 2 ^ 25 * 2 ^ 28 := Nat.mul_lt_mul'' la0 lb1
      _ = 2 ^ 53 := by norm_num
  have l3 : a1 * b0 < 2 ^ 53 := by calc a1 * b0 < 2 ^ 28 * 2 ^ 25 := Nat.mul_lt_mul'' la1 lb0
      _ = 2 ^ 53 := by norm_num
  have l4 : a1 * b1 < 2 ^ 56 := by calc a1 * b1 < 2 ^ 28 * 2 ^ 28 := Nat.mul_lt_mul'' la1 lb1
      _ = 2 ^ 56 := by norm_num
  have hP : xu.toNat * yu.toNat = a1 * b1 * 2 ^ 50 + (a0 * b1 + a1 * b0) * 2 ^ 25 + a0 * b0 := by
    have e1 : xu.toNat = a1 * 2 ^ 25 + a0 := by omega
    have e2 : yu.toNat = b1 * 2 ^ 25 + b0 := by omega
    rw [e1, e2]; ring
  rw [hw1, hw2, hw3, hw4, hP]
  rw [← ew1] at l1
  rw [← ew2] at l2
  rw [← ew3] at l3
  rw [← ew4] at l4
  rw [← ew1, ← ew2, ← ew3, ← ew4]
  have hz0 : (w1.setWidth 32 &&& 0x01FFFFFF#32 : BitVec 32).toNat = w1.toNat % 2 ^ 25 := low25 w1
  have hz1 : ((w1 >>> 25).setWidth 32 + (w2.setWidth 32 &&& 0x01FFFFFF#32) + (w3.setWidth 32 &&& 0x01FFFFFF#32) : BitVec 32).toNat =
      w1.toNat / 2 ^ 25 + w2.toNat % 2 ^ 25 + w3.toNat % 2 ^ 25 := by
    rw [BitVec.toNat_add, BitVec.toNat_add, low25, low25, high25 _ (by omega)]; omega
  obtain ⟨z0, ez0⟩ : ∃ z : BitVec 32, (w1.setWidth 32 &&& 0x01FFFFFF#32 : BitVec 32) = z := ⟨_, rfl⟩
  obtain ⟨z1, ez1⟩ : ∃ z : BitVec 32, ((w1 >>> 25).setWidth 32 + (w2.setWidth 32 &&& 0x01FFFFFF#32) + (w3.setWidth 32 &&& 0x01FFFFFF#32) : BitVec 32) = z := ⟨_, rfl⟩
  rw [ez0] at hz0 ⊢
  rw [ez1] at hz1 ⊢
  have hz2 : ((w2 >>> 25).setWidth 32 + (w3 >>> 25).setWidth 32 + z1 >>> 25 : BitVec 32).toNat = w2.toNat / 2 ^ 25 + w3.toNat / 2 ^ 25 + z1.toNat / 2 ^ 25 := by
    rw [BitVec.toNat_add, BitVec.toNat_add, high25 _ (by omega), high25 _ (by omega), BitVec.toNat_ushiftRight, Nat.shiftRight_eq_div_pow]; omega
  obtain ⟨z2, ez2⟩ : ∃ z : BitVec 32, ((w2 >>> 25).setWidth 32 + (w3 >>> 25).setWidth 32 + z1 >>> 25 : BitVec 32) = z := ⟨_, rfl⟩
  rw [ez2] at hz2 ⊢
  have hz1' : (z1 &&& 0x01FFFFFF#32 : BitVec 32).toNat = z1.toNat % 2 ^ 25 := low25' z1
  obtain ⟨z1', ez1'⟩ : ∃ z : BitVec 32, (z1 &&& 0x01FFFFFF#32 : BitVec 32) = z := ⟨_, rfl⟩
  rw [ez1'] at hz1' ⊢
  have hor : (z0 ||| z1').toNat < 2 ^ 25 := by
    rw [BitVec.toNat_or]
    exact Nat.or_lt_two_pow (by omega) (by omega)
  have hor0 : (z0 ||| z1').toNat = 0 ↔ z0.toNat = 0 ∧ z1'.toNat = 0 := by rw [BitVec.toNat_or]; exact Nat.or_eq_zero_iff
  have hst : ((((z0 ||| z1') + 0x01FFFFFF#32 : BitVec 32) >>> 25).setWidth 64).toNat = if (z0 ||| z1').toNat = 0 then 0 else 1 := by
    rw [BitVec.toNat_setWidth, BitVec.toNat_ushiftRight, Nat.shiftRight_eq_div_pow, BitVec.toNat_add, show (0x01FFFFFF#32).toNat = 2 ^ 25 - 1 from rfl]
    split <;> omega
  rw [BitVec.toNat_or, hst, BitVec.toNat_add, BitVec.toNat_setWidth]
  congr 1
  · omega
  · have hPm : (w4.toNat * 2 ^ 50 + (w2.toNat + w3.toNat) * 2 ^ 25 + w1.toNat) % 2 ^ 50 = z1'.toNat * 2 ^ 25 + z0.toNat := by omega
    rw [hPm]
    by_cases c : (z0 ||| z1').toNat = 0
    · rw [if_pos c, if_pos (by have := hor0.1 c; omega)]
    · rw [if_neg c, if_neg (fun h => c (hor0.2 (by omega)))]

/-- **C99**: multiplication is correctly rounded, for all zeros and normal numbers; the sign is the product of the signs. -/
theorem C99_mul (x y : W) : Rounded (val x * val y) (mul x y) := by
  unfold mul
  simp only
  obtain ⟨xu, hxu⟩ : ∃ a : W, (x &&& ((1#64 <<< 52) - 1#64)) ||| (1#64 <<< 52) = a := ⟨_, rfl⟩
  obtain ⟨yu, hyu⟩ : ∃ a : W, (y &&& ((1#64 <<< 52) - 1#64)) ||| (1#64 <<< 52) = a := ⟨_, rfl⟩
  have ex : xu.toNat = 2 ^ 52 + mant x := by rw [← hxu]; exact toNat_full x
  have ey : yu.toNat = 2 ^ 52 + mant y := by rw [← hyu]; exact toNat_full y
  have mx := (fields x).2.2.2
  have my := (fields y).2.2.2
  have fx := (fields x).2.2.1
  have fy := (fields y).2.2.1
  rw [hxu, hyu, toNat_expo, toNat_expo, toNat_sgn_xor]
  have hs : (sgn x + sgn y) % 2 < 2 := Nat.mod_lt _ (by norm_num)
  by_cases hz : expo x = 0 ∨ expo y = 0
  · have hd : ((expo x + 0x7FF) &&& (expo y + 0x7FF)) >>> 11 = 0 := by
      rw [Nat.shiftRight_and_distrib, Nat.shiftRight_eq_div_pow, Nat.shiftRight_eq_div_pow]
      rcases hz with h | h
      · rw [h]; simp
      · rw [h]; simp
    rw [hd, and_neg_zero]
    have hv : val x * val y = 0 := by
      rcases hz with h | h
      · rw [val_eq_zero x h, zero_mul]
      · rw [val_eq_zero y h, mul_zero]
    obtain ⟨z1, z2, _⟩ := ok_zero _ _ (pack_zero _ hs _ 0 (.inl rfl))
    rw [hv]
    refine ⟨fun _ => ⟨z1, z2⟩, fun h => ?_⟩
    rw [abs_zero] at h
    exact absurd h (not_le.2 (by positivity))
  · push Not at hz
    have hd : ((expo x + 0x7FF) &&& (expo y + 0x7FF)) >>> 11 = 1 := by
      rw [Nat.shiftRight_and_distrib, Nat.shiftRight_eq_div_pow, Nat.shiftRight_eq_div_pow]
      have h1 : (expo x + 0x7FF) / 2 ^ 11 = 1 := by omega
      have h2 : (expo y + 0x7FF) / 2 ^ 11 = 1 := by omega
      rw [h1, h2]; rfl
    rw [hd, and_neg_one]
    have hq := mulMant_spec xu yu (by omega) (by omega)
    obtain ⟨q, hq'⟩ : ∃ q, mulMant xu yu = q := ⟨_, rfl⟩
    rw [hq'] at hq ⊢
    have hst : Sticky q.toNat (((xu.toNat * yu.toNat : ℕ) : ℝ) / ((2 ^ 50 : ℕ) : ℝ)) := by rw [hq]; exact sticky_div _ _ (by norm_num)
    have hP1 : 2 ^ 104 ≤ xu.toNat * yu.toNat := by
      calc 2 ^ 104 = 2 ^ 52 * 2 ^ 52 := by norm_num
        _ ≤ _ := Nat.mul_le_mul (by omega) (by omega)
    have hP2 : xu.toNat * yu.toNat < 2 ^ 106 := by
      calc xu.toNat * yu.toNat < 2 ^ 53 * 2 ^ 53 := Nat.mul_lt_mul'' (by omega) (by omega)
        _ = 2 ^ 106 := by norm_num
    have hq1 : 2 ^ 54 ≤ q.toNat := by rw [hq]; exact le_trans (by omega) Nat.left_le_or
    have hq2 : q.toNat < 2 ^ 56 := by
      rw [hq]
      exact Nat.or_lt_two_pow (by omega) (by split <;> norm_num)
    obtain ⟨w, hw, hw2, k1, k2, k3⟩ := halve q hq1 hq2 _ hst
    rw [hw]
    have := pack_spec _ hs ((expo x : ℤ) + (expo y : ℤ) - 2100 + (w : ℤ)) (by omega) _ k1 k2 _ k3
    convert this using 1
    rw [val_ne x hz.1, val_ne y hz.2, neg_one_pow_mod, ← ex, ← ey]
    have e1 : (2 : ℝ) ^ ((expo x : ℤ) + (expo y : ℤ) - 2100 + (w : ℤ)) = (2 : ℝ) ^ ((expo x : ℤ) - 1075) * (2 : ℝ) ^ ((expo y : ℤ) - 1075) * (2 : ℝ) ^ (50 : ℕ) * (2 : ℝ) ^ w := by
      rw [← zpow_natCast, ← zpow_natCast, ← zpow_add₀ (by norm_num), ← zpow_add₀ (by norm_num), ← zpow_add₀ (by norm_num)]
      congr 1; push_cast; ring
    rw [e1]
    push_cast
    field_simp
    try ring

end Verif.CRef.Fpr
