import Verif.CRef.FprNorm
import Mathlib.Tactic.LinearCombination

/-! # C99: addition and subtraction are correctly rounded -/

namespace Verif.CRef.Fpr

/-! ## A far operand does not change the rounding -/

theorem rne_near (a : ℤ) (d : ℝ) (h : |d| < 1 / 2) : rne (a + d) = a := by
  rw [abs_lt] at h
  by_cases c : 0 ≤ d
  · exact rne_nat_add a d c (fun h' => by linarith) (by linarith)
  · have h2 := rne_nat_add_up (a - 1) (1 + d) (by linarith) (fun h' => by linarith) (by linarith)
    rw [show ((a - 1 : ℤ) : ℝ) + (1 + d) = a + d by push_cast; ring] at h2
    rw [h2]; ring

theorem rnd_near (F : ℕ) (h1 : 2 ^ 52 ≤ F) (h2 : F < 2 ^ 53) (k : ℤ) (d : ℝ) (h : |d| < 1 / 4) : rnd ((F + d) * (2 : ℝ) ^ k) = F * (2 : ℝ) ^ k := by
  have hu : (0 : ℝ) < (2 : ℝ) ^ k := by positivity
  have ha := h
  rw [abs_lt] at ha
  have g1 : (2 : ℝ) ^ 52 ≤ F := by exact_mod_cast h1
  have g2 : (F : ℝ) + 1 ≤ (2 : ℝ) ^ 53 := by exact_mod_cast h2
  by_cases c : (2 : ℝ) ^ 52 ≤ F + d
  · rw [rnd_of_range _ k, mul_div_cancel_right₀ _ (ne_of_gt hu)]
    · have := rne_near (F : ℤ) d (by linarith)
      rw [Int.cast_natCast] at this
      rw [this, Int.cast_natCast]
    · rw [zpow_add₀ (by norm_num), mul_comm]
      have : (2 : ℝ) ^ (52 : ℤ) = (2 : ℝ) ^ (52 : ℕ) := by norm_cast
      rw [this]
      exact mul_le_mul_of_nonneg_right c hu.le
    · rw [zpow_add₀ (by norm_num), mul_comm ((2 : ℝ) ^ k)]
      have : (2 : ℝ) ^ (53 : ℤ) = (2 : ℝ) ^ (53 : ℕ) := by norm_cast
      rw [this]
      exact mul_lt_mul_of_pos_right (by linarith) hu
  · push Not at c
    have hF : F = 2 ^ 52 := by
      by_contra hne
      have : 2 ^ 52 + 1 ≤ F := by omega
      have : (2 : ℝ) ^ 52 + 1 ≤ F := by exact_mod_cast this
      linarith
    have hu2 : (2 : ℝ) ^ k = 2 * (2 : ℝ) ^ (k - 1) := by rw [← zpow_one_add₀ (by norm_num)]; congr 1; ring
    have hu3 : (0 : ℝ) < (2 : ℝ) ^ (k - 1) := by positivity
    have e : ((F : ℝ) + d) * (2 : ℝ) ^ k = (2 * F + 2 * d) * (2 : ℝ) ^ (k - 1) := by rw [hu2]; ring
    rw [e, rnd_of_range _ (k - 1), mul_div_cancel_right₀ _ (ne_of_gt hu3)]
    · have := rne_near ((2 * F : ℕ) : ℤ) (2 * d) (by rw [abs_mul, abs_two]; linarith)
      rw [Int.cast_natCast] at this
      push_cast at this
      rw [this, hu2]; push_cast; ring
    · rw [show k - 1 + 52 = (k - 1) + (52 : ℕ) by push_cast; ring, zpow_add₀ (by norm_num), mul_comm, zpow_natCast]
      exact mul_le_mul_of_nonneg_right (by linarith) hu3.le
    · rw [show k - 1 + 53 = (k - 1) + (53 : ℕ) by push_cast; ring, zpow_add₀ (by norm_num), mul_comm ((2 : ℝ) ^ (k - 1)), zpow_natCast]
      apply mul_lt_mul_of_pos_right _ hu3
      have : (2 : ℝ) ^ 53 = 2 * 2 ^ 52 := by norm_num
      linarith

/-! ## The parts of the addition -/

/-- The magnitude of a word as an integer. -/
theorem toNat_mag (x : W) : (x &&& ((1#64 <<< 63) - 1#64)).toNat = x.toNat % 2 ^ 63 := by
  rw [BitVec.toNat_and]
  exact and_mask x.toNat 63

/-- The conditional swap: the operand of larger magnitude comes first; among opposite numbers the positive one. -/
theorem addSwap_spec (x y : W) : ∃ x' y' : W, addSwap x y = (x', y') ∧ ((x' = x ∧ y' = y) ∨ (x' = y ∧ y' = x)) ∧ y'.toNat % 2 ^ 63 ≤ x'.toNat % 2 ^ 63 ∧
    (y'.toNat % 2 ^ 63 = x'.toNat % 2 ^ 63 → sgn x' = 1 → sgn y' = 1) := by
  unfold addSwap
  simp only
  have hx := x.isLt
  have hy := y.isLt
  obtain ⟨za, hza⟩ : ∃ a, (x &&& ((1#64 <<< 63) - 1#64)) - (y &&& ((1#64 <<< 63) - 1#64)) = a := ⟨_, rfl⟩
  have hz : za.toNat = (2 ^ 64 - y.toNat % 2 ^ 63 + x.toNat % 2 ^ 63) % 2 ^ 64 := by
    rw [← hza, BitVec.toNat_sub, toNat_mag, toNat_mag]
  rw [hza]
  have hmul : ∀ b : Bool, ((x ^^^ ((x ^^^ y) &&& -(BitVec.ofNat 64 b.toNat)), y ^^^ ((x ^^^ y) &&& -(BitVec.ofNat 64 b.toNat))) : W × W) = if b then (y, x) else (x, y) := by
    intro b
    rw [condxor, BitVec.xor_comm x y, condxor]
    cases b <;> rfl
  have hcs : (za >>> 63).setWidth 32 ||| ((1#32 - ((-za) >>> 63).setWidth 32) &&& (x >>> 63).setWidth 32) =
      BitVec.ofNat 32 (decide (x.toNat % 2 ^ 63 < y.toNat % 2 ^ 63 ∨ (x.toNat % 2 ^ 63 = y.toNat % 2 ^ 63 ∧ sgn x = 1))).toNat := by
    have e1 : (za >>> 63).setWidth 32 = BitVec.ofNat 32 (decide (x.toNat % 2 ^ 63 < y.toNat % 2 ^ 63)).toNat := by
      apply BitVec.eq_of_toNat_eq
      rw [BitVec.toNat_setWidth, toNat_shr, hz]
      by_cases c : x.toNat % 2 ^ 63 < y.toNat % 2 ^ 63
      · rw [decide_eq_true c]; show _ = 1; omega
      · rw [decide_eq_false c]; show _ = 0; omega
    have e2 : ((-za) >>> 63).setWidth 32 = BitVec.ofNat 32 (decide (y.toNat % 2 ^ 63 < x.toNat % 2 ^ 63)).toNat := by
      apply BitVec.eq_of_toNat_eq
      rw [BitVec.toNat_setWidth, toNat_shr, BitVec.toNat_neg, hz]
      by_cases c : y.toNat % 2 ^ 63 < x.toNat % 2 ^ 63
      · rw [decide_eq_true c]; show _ = 1; omega
      · rw [decide_eq_false c]; show _ = 0; omega
    have e3 : (x >>> 63).setWidth 32 = BitVec.ofNat 32 (decide (sgn x = 1)).toNat := by
      apply BitVec.eq_of_toNat_eq
      rw [BitVec.toNat_setWidth, toNat_sgn]
      have := (fields x).2.1
      by_cases c : sgn x = 1
      · rw [decide_eq_true c]; show _ = 1; omega
      · rw [decide_eq_false c]; show _ = 0; omega
    rw [e1, e2, e3]
    rcases lt_trichotomy (x.toNat % 2 ^ 63) (y.toNat % 2 ^ 63) with c | c | c
    · rw [decide_eq_true c, decide_eq_false (show ¬ (y.toNat % 2 ^ 63 < x.toNat % 2 ^ 63) by omega), decide_eq_true (Or.inl c)]
      by_cases d : sgn x = 1
      · rw [decide_eq_true d]; rfl
      · rw [decide_eq_false d]; rfl
    · rw [decide_eq_false (show ¬ (x.toNat % 2 ^ 63 < y.toNat % 2 ^ 63) by omega), decide_eq_false (show ¬ (y.toNat % 2 ^ 63 < x.toNat % 2 ^ 63) by omega)]
      by_cases d : sgn x = 1
      · rw [decide_eq_true d, decide_eq_true (Or.inr ⟨c, d⟩)]; rfl
      · rw [decide_eq_false d, decide_eq_false (fun h => h.elim (fun h => by omega) (fun h => d h.2))]; rfl
    · rw [decide_eq_false (show ¬ (x.toNat % 2 ^ 63 < y.toNat % 2 ^ 63) by omega), decide_eq_true c, decide_eq_false (show ¬(x.toNat % 2 ^ 63 < y.toNat % 2 ^ 63 ∨ (x.toNat % 2 ^ 63 = y.toNat % 2 ^ 63 ∧ sgn x = 1)) from fun h => h.elim (fun h => by omega) (fun h => by omega))]
      by_cases d : sgn x = 1
      · rw [decide_eq_true d]; rfl
      · rw [decide_eq_false d]; rfl
  rw [hcs, setWidth_bit, hmul]
  have fx := (fields x).2.1
  have fy := (fields y).2.1
  by_cases c : x.toNat % 2 ^ 63 < y.toNat % 2 ^ 63 ∨ (x.toNat % 2 ^ 63 = y.toNat % 2 ^ 63 ∧ sgn x = 1)
  · rw [decide_eq_true c]
    exact ⟨y, x, rfl, .inr ⟨rfl, rfl⟩, by omega, fun h1 _ => by omega⟩
  · rw [decide_eq_false c]
    exact ⟨x, y, rfl, .inl ⟨rfl, rfl⟩, by omega, fun h1 _ => by omega⟩

/-- The mantissa with the implicit bit, zero for a zero. -/
def fullMant (x : W) : ℕ := if expo x = 0 then 0 else 2 ^ 52 + mant x

theorem val_full (x : W) : val x = (-1) ^ sgn x * ((fullMant x : ℝ) * (2 : ℝ) ^ ((expo x : ℤ) - 1075)) := by
  unfold fullMant
  by_cases h : expo x = 0
  · rw [if_pos h, val_eq_zero x h]; simp
  · rw [if_neg h, val_ne x h]

theorem mant8_toNat (x : W) (h : expo x = 0 → mant x = 0) : (mant8 x (expo x)).toNat = 8 * fullMant x := by
  unfold mant8 fullMant
  simp only
  have mx := (fields x).2.2.2
  have fx := (fields x).2.2.1
  by_cases c : expo x = 0
  · have e1 : (expo x + 0x7FF) >>> 11 = 0 := by rw [c]; rfl
    rw [e1, if_pos c]
    have e2 : ((x &&& ((1#64 <<< 52) - 1#64)) ||| ((BitVec.ofNat 64 0) <<< 52)).toNat = 0 := by
      rw [BitVec.toNat_or, toNat_mask52, h c]; rfl
    rw [toNat_shl _ _ (by rw [e2]; norm_num), e2]; rfl
  · have e1 : (expo x + 0x7FF) >>> 11 = 1 := by rw [Nat.shiftRight_eq_div_pow]; omega
    rw [e1, if_neg c]
    have e2 : ((x &&& ((1#64 <<< 52) - 1#64)) ||| ((BitVec.ofNat 64 1) <<< 52)).toNat = 2 ^ 52 + mant x := toNat_full x
    rw [toNat_shl _ _ (by rw [e2]; omega), e2]; ring

theorem addShift_far (yu : W) (cc : ℕ) (hcc : 60 ≤ cc) (hcc2 : cc < 2 ^ 12) : addShift yu cc = 0 := by
  unfold addShift
  simp only
  rw [sign32 _ (by omega) (by omega), setWidth_bit, mask, decide_eq_false (by omega)]
  simp only [Bool.false_eq_true, if_false]
  have hc : cc &&& 63 = cc % 64 := and_mask cc 6
  rw [hc]
  obtain ⟨c, hc'⟩ : ∃ c, cc % 64 = c := ⟨_, rfl⟩
  have hlt : c < 64 := by omega
  rw [hc', ulsh_eq _ _ hlt, ursh_eq _ _ hlt]
  have h1 : (1#64 <<< c).toNat = 2 ^ c := by
    rw [BitVec.toNat_shiftLeft, Nat.shiftLeft_eq, show (1#64).toNat = 1 from rfl, one_mul, Nat.mod_eq_of_lt (Nat.pow_lt_pow_right (by norm_num) hlt)]
  have h2 : (1#64 <<< c - 1#64).toNat = 2 ^ c - 1 := by
    rw [BitVec.toNat_sub, h1, show (1#64).toNat = 1 from rfl]
    have : 2 ^ c < 2 ^ 64 := Nat.pow_lt_pow_right (by norm_num) hlt
    have : 0 < 2 ^ c := by positivity
    omega
  apply BitVec.eq_of_toNat_eq
  rw [toNat_shr]
  simp only [BitVec.ofNat_eq_ofNat, BitVec.zero_and, BitVec.zero_add, BitVec.zero_or]
  rw [h2]
  have : 0 < 2 ^ c := by positivity
  rw [Nat.div_eq_of_lt (by omega)]; rfl

theorem addShift_near (yu : W) (hyu : yu.toNat < 2 ^ 56) (cc : ℕ) (hcc : cc < 60) :
    (addShift yu cc).toNat = (yu.toNat / 2 ^ cc) ||| (if yu.toNat % 2 ^ cc = 0 then 0 else 1) := by
  unfold addShift
  simp only
  rw [sign32 _ (by omega) (by omega), setWidth_bit, mask, decide_eq_true (by omega)]
  simp only [if_true]
  have hc : cc &&& 63 = cc := by rw [show (63 : ℕ) = 2 ^ 6 - 1 from rfl, and_mask]; omega
  rw [hc, ulsh_eq _ _ (by omega), ursh_eq _ _ (by omega)]
  have hlt : 2 ^ cc < 2 ^ 60 := Nat.pow_lt_pow_right (by norm_num) hcc
  have hp : 0 < 2 ^ cc := by positivity
  have h1 : (1#64 <<< cc).toNat = 2 ^ cc := by
    rw [BitVec.toNat_shiftLeft, Nat.shiftLeft_eq, show (1#64).toNat = 1 from rfl, one_mul, Nat.mod_eq_of_lt (by omega)]
  have h2 : (1#64 <<< cc - 1#64).toNat = 2 ^ cc - 1 := by
    rw [BitVec.toNat_sub, h1, show (1#64).toNat = 1 from rfl]
    omega
  have h3 : (yu &&& (1#64 <<< cc - 1#64)).toNat = yu.toNat % 2 ^ cc := by rw [BitVec.toNat_and, h2, and_mask]
  have hml : yu.toNat % 2 ^ cc < 2 ^ cc := Nat.mod_lt _ hp
  have h4 : ((yu &&& (1#64 <<< cc - 1#64)) + (1#64 <<< cc - 1#64)).toNat = yu.toNat % 2 ^ cc + (2 ^ cc - 1) := by
    rw [BitVec.toNat_add, h2, h3]; omega
  rw [BitVec.toNat_ushiftRight, BitVec.toNat_or, Nat.shiftRight_or_distrib, Nat.shiftRight_eq_div_pow, Nat.shiftRight_eq_div_pow, h4]
  have h5 : (yu.toNat % 2 ^ cc + (2 ^ cc - 1)) / 2 ^ cc = if yu.toNat % 2 ^ cc = 0 then 0 else 1 := by
    obtain ⟨t, ht⟩ : ∃ t, yu.toNat % 2 ^ cc = t := ⟨_, rfl⟩
    rw [ht] at hml ⊢
    by_cases c : t = 0
    · rw [if_pos c]; exact Nat.div_eq_of_lt (by omega)
    · rw [if_neg c, Nat.div_eq_iff hp]; omega
  rw [h5]

/-- The mantissa combination: sum for equal signs, difference for opposite signs. -/
theorem addComb (xu ys : W) (sx sy : ℕ) (hsx : sx < 2) (hsy : sy < 2) (hx : xu.toNat < 2 ^ 60) (hy : ys.toNat ≤ xu.toNat) :
    (xu + (ys - ((ys <<< 1) &&& -(BitVec.ofNat 64 (sx ^^^ sy))))).toNat = if sx = sy then xu.toNat + ys.toNat else xu.toNat - ys.toNat := by
  have h2 : (ys <<< 1).toNat = 2 * ys.toNat := by rw [toNat_shl _ _ (by omega)]; omega
  by_cases c : sx = sy
  · subst c
    rw [Nat.xor_self, and_neg_zero, if_pos rfl, show ys - (0 : W) = ys by simp, BitVec.toNat_add]; omega
  · have : sx ^^^ sy = 1 := by
      have : (sx = 0 ∧ sy = 1) ∨ (sx = 1 ∧ sy = 0) := by omega
      rcases this with ⟨rfl, rfl⟩ | ⟨rfl, rfl⟩ <;> rfl
    rw [this, and_neg_one, if_neg c, BitVec.toNat_add, BitVec.toNat_sub, h2]; omega

theorem expo_shift (x : W) : (x >>> 52).toNat >>> 11 = sgn x ∧ (x >>> 52).toNat &&& 0x7FF = expo x := by
  have := x.isLt
  rw [toNat_shr]
  constructor
  · rw [Nat.shiftRight_eq_div_pow]; unfold sgn; omega
  · rw [show (0x7FF : ℕ) = 2 ^ 11 - 1 from rfl, and_mask]; rfl

/-- The part after the swap. -/
def addTail (x y : W) : W :=
  let p := norm64 (mant8 x (expo x) + (addShift (mant8 y (expo y)) (expo x - expo y) -
    ((addShift (mant8 y (expo y)) (expo x - expo y) <<< 1) &&& -(BitVec.ofNat 64 (sgn x ^^^ sgn y))))) ((expo x : ℤ) - 1078)
  pack (sgn x) (p.2 + 9) (sticky9 p.1)

theorem add_eq_tail (x y x' y' : W) (h : addSwap x y = (x', y')) : add x y = addTail x' y' := by
  unfold add addTail
  rw [h]
  simp only
  rw [(expo_shift x').1, (expo_shift x').2, (expo_shift y').1, (expo_shift y').2]

theorem sign_eq (s : ℕ) : ((-1 : ℝ)) ^ s * (-1) ^ s = 1 := by
  rw [← mul_pow]; norm_num

/-- Magnitude below `2^1024 - 2^970` for numbers. -/
theorem val_lt (x : W) (hx : Ok x) : |val x| < 2 ^ 1024 - 2 ^ 970 := by
  rw [val_full, abs_mul, abs_pow, abs_neg, abs_one, one_pow, one_mul, abs_of_nonneg (by positivity)]
  have mx := (fields x).2.2.2
  have fx := (fields x).2.2.1
  have h1 : (fullMant x : ℝ) ≤ 2 ^ 53 - 1 := by
    have : fullMant x + 1 ≤ 2 ^ 53 := by unfold fullMant; split <;> omega
    have : (fullMant x : ℝ) + 1 ≤ 2 ^ 53 := by exact_mod_cast this
    linarith
  have h2 : (2 : ℝ) ^ ((expo x : ℤ) - 1075) ≤ (2 : ℝ) ^ (971 : ℕ) := by
    rw [← zpow_natCast]
    apply zpow_le_zpow_right₀ (by norm_num)
    have := hx.1
    push_cast
    omega
  calc (fullMant x : ℝ) * (2 : ℝ) ^ ((expo x : ℤ) - 1075) ≤ (2 ^ 53 - 1) * (2 : ℝ) ^ (971 : ℕ) := mul_le_mul h1 h2 (by positivity) (by norm_num)
    _ < _ := by
      have e1 : (2 : ℝ) ^ 1024 = 2 ^ 54 * 2 ^ 970 := by rw [← pow_add]
      have e2 : (2 : ℝ) ^ 971 = 2 * 2 ^ 970 := by rw [← pow_succ']
      have e3 : (0 : ℝ) < 2 ^ 970 := by positivity
      rw [e1, e2]
      obtain ⟨u, hu⟩ : ∃ u : ℝ, (2 : ℝ) ^ 970 = u := ⟨_, rfl⟩
      rw [hu] at e3 ⊢
      have : (2 : ℝ) ^ 54 * u - u - (2 ^ 53 - 1) * (2 * u) = u := by ring
      exact sub_pos.1 (by rw [this]; exact e3)

theorem val_ge (x : W) (h : expo x ≠ 0) : (2 : ℝ) ^ ((expo x : ℤ) - 1023) ≤ |val x| := by
  rw [val_ne x h, abs_mul, abs_pow, abs_neg, abs_one, one_pow, one_mul, abs_of_nonneg (by positivity)]
  have : (2 : ℝ) ^ ((expo x : ℤ) - 1023) = (2 : ℝ) ^ (52 : ℕ) * (2 : ℝ) ^ ((expo x : ℤ) - 1075) := by
    rw [← zpow_natCast, ← zpow_add₀ (by norm_num)]; congr 1; push_cast; ring
  rw [this]
  apply mul_le_mul_of_nonneg_right _ (by positivity)
  push_cast
  linarith [show (0 : ℝ) ≤ (mant x : ℝ) by positivity]

/-- A number is its own rounding. -/
theorem rnd_val (x : W) : rnd (val x) = val x := by
  by_cases h : expo x = 0
  · rw [val_eq_zero x h]; unfold rnd; rw [if_pos rfl]
  · have mx := (fields x).2.2.2
    have := rnd_near (2 ^ 52 + mant x) (by omega) (by omega) ((expo x : ℤ) - 1075) 0 (by norm_num)
    rw [add_zero] at this
    rw [val_ne x h, rnd_sign, this]

theorem tail_spec (x y : W) (hx : Ok x) (hy : Ok y) (h : y.toNat % 2 ^ 63 ≤ x.toNat % 2 ^ 63) :
    Rounded (val x + val y) (addTail x y) ∧ (val x + val y = 0 → sgn (addTail x y) = sgn x) := by
  obtain ⟨ex1, sx, fx, mx⟩ := fields x
  obtain ⟨ey1, sy, fy, my⟩ := fields y
  have hee : expo y ≤ expo x := by omega
  have hem : expo y = expo x → mant y ≤ mant x := by omega
  unfold addTail
  simp only
  have hxu := mant8_toNat x hx.2
  have hyu := mant8_toNat y hy.2
  obtain ⟨xu, hxu'⟩ : ∃ a, mant8 x (expo x) = a := ⟨_, rfl⟩
  obtain ⟨yu, hyu'⟩ : ∃ a, mant8 y (expo y) = a := ⟨_, rfl⟩
  rw [hxu'] at hxu ⊢
  rw [hyu'] at hyu ⊢
  obtain ⟨cc, hcc⟩ : ∃ c, expo x - expo y = c := ⟨_, rfl⟩
  rw [hcc]
  have hFx : fullMant x < 2 ^ 53 := by unfold fullMant; split <;> omega
  have hFy : fullMant y < 2 ^ 53 := by unfold fullMant; split <;> omega
  -- the exact sum, in units of the larger operand
  have hsum : val x + val y = (-1) ^ sgn x * (((xu.toNat : ℝ) + (-1) ^ ((sgn x + sgn y) % 2) * ((yu.toNat : ℝ) / (2 : ℝ) ^ cc)) * (2 : ℝ) ^ ((expo x : ℤ) - 1078)) := by
    rw [val_full x, val_full y, neg_one_pow_mod, hxu, hyu]
    have e1 : (2 : ℝ) ^ ((expo x : ℤ) - 1075) = 8 * (2 : ℝ) ^ ((expo x : ℤ) - 1078) := by
      rw [show (8 : ℝ) = (2 : ℝ) ^ (3 : ℤ) by norm_num, ← zpow_add₀ (by norm_num)]; congr 1; ring
    have e2 : (2 : ℝ) ^ ((expo y : ℤ) - 1075) = 8 * ((2 : ℝ) ^ ((expo x : ℤ) - 1078) / (2 : ℝ) ^ cc) := by
      rw [← zpow_natCast, ← zpow_sub₀ (by norm_num), show (8 : ℝ) = (2 : ℝ) ^ (3 : ℤ) by norm_num, ← zpow_add₀ (by norm_num)]; congr 1
      omega
    rw [e1, e2]
    have := sign_eq (sgn x)
    push_cast
    linear_combination (-(((-1 : ℝ)) ^ sgn y * (8 * (fullMant y : ℝ) * ((2 : ℝ) ^ ((expo x : ℤ) - 1078) / (2 : ℝ) ^ cc)))) * this
  by_cases far : 60 ≤ cc
  · -- the smaller operand is dropped
    have hex0 : expo x ≠ 0 := by omega
    have hF0 : fullMant x = 2 ^ 52 + mant x := by unfold fullMant; rw [if_neg hex0]
    rw [addShift_far yu cc far (by omega)]
    have hz : xu + ((0 : W) - (((0 : W) <<< 1) &&& -(BitVec.ofNat 64 (sgn x ^^^ sgn y)))) = xu := by simp
    rw [hz]
    have hne : xu ≠ 0 := by intro h0; rw [h0] at hxu; simp at hxu; omega
    obtain ⟨m, e', hn, hr⟩ := normPack (sgn x) sx xu ((expo x : ℤ) - 1078) (by omega) hne xu.toNat (sticky_exact _) (fun _ => rfl)
    have hbd := norm64_exp xu ((expo x : ℤ) - 1078)
    rw [hn] at hbd ⊢
    simp only at hbd ⊢
    have hR := hr 9 (by omega)
    have hvx : (-1) ^ sgn x * ((xu.toNat : ℝ) * (2 : ℝ) ^ ((expo x : ℤ) - 1078 + 9 - 9)) = val x := by
      rw [val_full x, hxu, show (expo x : ℤ) - 1078 + 9 - 9 = ((expo x : ℤ) - 1075) - 3 by ring, zpow_sub₀ (by norm_num)]
      push_cast
      norm_num
      ring
    rw [hvx] at hR
    have hge := val_ge x hex0
    have hbig : (2 : ℝ) ^ (-963 : ℤ) ≤ |val x| := le_trans (zpow_le_zpow_right₀ (by norm_num) (by omega)) hge
    have hlow : (2 : ℝ) ^ (-1022 : ℤ) ≤ |val x| := le_trans (zpow_le_zpow_right₀ (by norm_num) (by omega)) hge
    obtain ⟨o1, o2⟩ := hR.2 hlow (val_lt x hx)
    rw [rnd_val] at o2
    obtain ⟨δ, hδ⟩ : ∃ δ, (-1 : ℝ) ^ ((sgn x + sgn y) % 2) * ((yu.toNat : ℝ) / (2 : ℝ) ^ cc) = δ := ⟨_, rfl⟩
    have hδ2 : |δ| < 1 / 16 := by
      rw [← hδ, abs_mul, abs_pow, abs_neg, abs_one, one_pow, one_mul, abs_of_nonneg (by positivity), div_lt_iff₀ (by positivity)]
      have a1 : (yu.toNat : ℝ) < 2 ^ 56 := by
        have : yu.toNat < 2 ^ 56 := by omega
        exact_mod_cast this
      have a2 : (2 : ℝ) ^ 60 ≤ (2 : ℝ) ^ cc := pow_le_pow_right₀ (by norm_num) far
      have a3 : (2 : ℝ) ^ 60 = 16 * 2 ^ 56 := by norm_num
      linarith
    rw [hδ] at hsum
    have hsum2 : val x + val y = (-1) ^ sgn x * (((fullMant x : ℝ) + δ / 8) * (2 : ℝ) ^ ((expo x : ℤ) - 1075)) := by
      rw [hsum, hxu, show (expo x : ℤ) - 1078 = ((expo x : ℤ) - 1075) - 3 by ring, zpow_sub₀ (by norm_num)]
      push_cast
      norm_num
      ring
    have hrnd : rnd (val x + val y) = val x := by
      rw [hsum2, rnd_sign, rnd_near (fullMant x) (by omega) hFx _ _ (by rw [abs_div]; norm_num; linarith), ← val_full]
    have hnear : (2 : ℝ) ^ (-1022 : ℤ) ≤ |val x + val y| := by
      rw [hsum2, abs_mul, abs_pow, abs_neg, abs_one, one_pow, one_mul, abs_mul, abs_of_pos (show (0 : ℝ) < (2 : ℝ) ^ ((expo x : ℤ) - 1075) by positivity)]
      have a1 : (1 : ℝ) ≤ |(fullMant x : ℝ) + δ / 8| := by
        rw [abs_lt] at hδ2
        have : (2 : ℝ) ^ 52 ≤ (fullMant x : ℝ) := by
          have : 2 ^ 52 ≤ fullMant x := by omega
          exact_mod_cast this
        rw [le_abs]; left; linarith
      have a2 : (2 : ℝ) ^ (-1022 : ℤ) ≤ (2 : ℝ) ^ ((expo x : ℤ) - 1075) := zpow_le_zpow_right₀ (by norm_num) (by omega)
      nlinarith [show (0 : ℝ) < (2 : ℝ) ^ ((expo x : ℤ) - 1075) by positivity]
    refine ⟨⟨fun hc => absurd hc (not_lt.2 hnear), fun _ _ => ⟨o1, by rw [hrnd, o2]⟩⟩, fun h0 => ?_⟩
    rw [h0, abs_zero] at hnear
    exact absurd hnear (not_le.2 (by positivity))
  · push Not at far
    have hyu56 : yu.toNat < 2 ^ 56 := by omega
    have hys := addShift_near yu hyu56 cc far
    obtain ⟨ys, hys'⟩ : ∃ a, addShift yu cc = a := ⟨_, rfl⟩
    rw [hys'] at hys ⊢
    have hst : Sticky ys.toNat ((yu.toNat : ℝ) / (2 : ℝ) ^ cc) := by
      have := sticky_div yu.toNat (2 ^ cc) (by positivity)
      rw [← hys] at this
      exact_mod_cast this
    have hcexp : cc ≠ 0 → expo x ≠ 0 := by omega
    have hq0 : cc = 0 → ys.toNat = yu.toNat := by
      intro h0; rw [hys, h0, pow_zero, Nat.div_one, Nat.mod_one, if_pos rfl, Nat.or_zero]
    have hF : expo x ≠ 0 → fullMant x = 2 ^ 52 + mant x := fun hh => by unfold fullMant; rw [if_neg hh]
    have hys1 : 1 ≤ cc → ys.toNat < 2 ^ 55 := by
      intro h1
      rw [hys]
      have : yu.toNat / 2 ^ cc ≤ yu.toNat / 2 ^ 1 := Nat.div_le_div_left (Nat.pow_le_pow_right (by norm_num) h1) (by norm_num)
      exact Nat.or_lt_two_pow (by omega) (by split <;> norm_num)
    have hys2 : 2 ≤ cc → ys.toNat < 2 ^ 54 := by
      intro h1
      rw [hys]
      have : yu.toNat / 2 ^ cc ≤ yu.toNat / 2 ^ 2 := Nat.div_le_div_left (Nat.pow_le_pow_right (by norm_num) h1) (by norm_num)
      exact Nat.or_lt_two_pow (by omega) (by split <;> norm_num)
    have hle : ys.toNat ≤ xu.toNat := by
      by_cases c0 : cc = 0
      · rw [hq0 c0, hxu, hyu]
        have hee' : expo y = expo x := by omega
        have := hem hee'
        unfold fullMant
        rw [hee']
        split <;> omega
      · have := hys1 (by omega)
        have := hF (hcexp c0)
        omega
    have hZ := addComb xu ys (sgn x) (sgn y) sx sy (by omega) hle
    obtain ⟨Z, hZ'⟩ : ∃ Z, xu + (ys - ((ys <<< 1) &&& -(BitVec.ofNat 64 (sgn x ^^^ sgn y)))) = Z := ⟨_, rfl⟩
    rw [hZ'] at hZ ⊢
    -- the integer result stands for the exact sum
    obtain ⟨R, hR⟩ : ∃ R, (xu.toNat : ℝ) + (-1) ^ ((sgn x + sgn y) % 2) * ((yu.toNat : ℝ) / (2 : ℝ) ^ cc) = R := ⟨_, rfl⟩
    rw [hR] at hsum
    have hsgn : ((-1 : ℝ)) ^ ((sgn x + sgn y) % 2) = if sgn x = sgn y then 1 else -1 := by
      by_cases c : sgn x = sgn y
      · rw [if_pos c, c, show (sgn y + sgn y) % 2 = 0 by omega, pow_zero]
      · rw [if_neg c, show (sgn x + sgn y) % 2 = 1 by omega, pow_one]
    have hstZ : Sticky Z.toNat R := by
      obtain ⟨s1, s2⟩ := hst
      rw [← hR, hsgn, hZ]
      by_cases c : sgn x = sgn y
      · rw [if_pos c, if_pos c]
        refine ⟨?_, fun he => ?_⟩
        · push_cast
          rw [show (xu.toNat : ℝ) + 1 * ((yu.toNat : ℝ) / 2 ^ cc) - (xu.toNat + ys.toNat) = (yu.toNat : ℝ) / 2 ^ cc - ys.toNat by ring]
          exact s1
        · rw [s2 (by rw [Nat.even_iff] at he ⊢; omega)]; push_cast; ring
      · rw [if_neg c, if_neg c]
        refine ⟨?_, fun he => ?_⟩
        · rw [Nat.cast_sub hle, show (xu.toNat : ℝ) + -1 * ((yu.toNat : ℝ) / 2 ^ cc) - (xu.toNat - ys.toNat) = -((yu.toNat : ℝ) / 2 ^ cc - ys.toNat) by ring, abs_neg]
          exact s1
        · rw [s2 (by rw [Nat.even_iff] at he ⊢; omega), Nat.cast_sub hle]; ring
    have hexact : Z.toNat < 2 ^ 54 → R = Z.toNat := by
      intro hlt
      have hcc1 : cc ≤ 1 := by
        by_contra hc
        have a1 := hys2 (by omega)
        have a2 := hF (hcexp (by omega))
        rw [hZ] at hlt
        split at hlt <;> omega
      have hev : (yu.toNat / 2 ^ cc) * 2 ^ cc = yu.toNat ∧ ys.toNat = yu.toNat / 2 ^ cc := by
        have : cc = 0 ∨ cc = 1 := by omega
        rcases this with rfl | rfl
        · simpa using hq0 rfl
        · constructor
          · omega
          · rw [hys, if_pos (by omega), Nat.or_zero]
      have hys3 : (yu.toNat : ℝ) / (2 : ℝ) ^ cc = ys.toNat := by
        rw [hev.2, div_eq_iff (by positivity)]
        exact_mod_cast hev.1.symm
      rw [← hR, hsgn, hZ, hys3]
      by_cases c : sgn x = sgn y
      · rw [if_pos c, if_pos c]; push_cast; ring
      · rw [if_neg c, if_neg c, Nat.cast_sub hle]; ring
    by_cases hz0 : Z = 0
    · have hR0 : R = 0 := by rw [hexact (by rw [hz0]; show 0 < _; norm_num), hz0]; simp
      have hv0 : val x + val y = 0 := by rw [hsum, hR0]; simp
      have hbd := norm64_exp Z ((expo x : ℤ) - 1078)
      have hm0 := norm64_zero ((expo x : ℤ) - 1078)
      rw [hz0] at hbd ⊢
      obtain ⟨⟨m, e'⟩, hp⟩ : ∃ p, norm64 0 ((expo x : ℤ) - 1078) = p := ⟨_, rfl⟩
      rw [hp] at hbd hm0 ⊢
      simp only at hbd hm0 ⊢
      rw [hm0, show sticky9 0 = 0 by decide]
      obtain ⟨z1, z2, z3⟩ := ok_zero _ _ (pack_zero (sgn x) sx (e' + 9) 0 (.inl rfl))
      rw [hv0]
      refine ⟨⟨fun _ => ⟨z1, z2⟩, fun h => ?_⟩, fun _ => z3⟩
      rw [abs_zero] at h
      exact absurd h (not_le.2 (by positivity))
    · obtain ⟨m, e', hn, hr⟩ := normPack (sgn x) sx Z ((expo x : ℤ) - 1078) (by omega) hz0 R hstZ hexact
      have hbd := norm64_exp Z ((expo x : ℤ) - 1078)
      rw [hn] at hbd ⊢
      simp only at hbd ⊢
      have := hr 9 (by omega)
      rw [show (expo x : ℤ) - 1078 + 9 - 9 = (expo x : ℤ) - 1078 by ring, ← hsum] at this
      refine ⟨this, fun h0 => ?_⟩
      exfalso
      have hRZ : R = 0 := by
        rw [hsum] at h0
        rcases mul_eq_zero.1 h0 with h1 | h1
        · exact absurd h1 (pow_ne_zero _ (by norm_num))
        · rcases mul_eq_zero.1 h1 with h2 | h2
          · exact h2
          · exact absurd h2 (by positivity)
      have hZn : Z.toNat ≠ 0 := fun h => hz0 (BitVec.eq_of_toNat_eq h)
      by_cases hlt : Z.toNat < 2 ^ 54
      · rw [hexact hlt] at hRZ
        exact hZn (by exact_mod_cast hRZ)
      · have := hstZ.1
        rw [hRZ, zero_sub, abs_neg, Nat.abs_cast] at this
        have : Z.toNat < 1 := by exact_mod_cast this
        omega

/-- **C99**: addition is correctly rounded, for all zeros and normal numbers. -/
theorem C99_add (x y : W) (hx : Ok x) (hy : Ok y) : Rounded (val x + val y) (add x y) := by
  obtain ⟨x', y', e, hp, hle, hsg⟩ := addSwap_spec x y
  rw [add_eq_tail x y x' y' e]
  rcases hp with ⟨rfl, rfl⟩ | ⟨rfl, rfl⟩
  · exact (tail_spec _ _ hx hy hle).1
  · rw [add_comm]
    exact (tail_spec _ _ hy hx hle).1

/-- **C99**: an exact zero sum is `+0`, unless both operands are `-0`. -/
theorem C99_add_zero (x y : W) (hx : Ok x) (hy : Ok y) (h : val x + val y = 0) : add x y = if sgn x = 1 ∧ sgn y = 1 then 1#64 <<< 63 else 0#64 := by
  obtain ⟨x', y', e, hp, hle, hsg⟩ := addSwap_spec x y
  have key : ∀ a b : W, Ok a → Ok b → b.toNat % 2 ^ 63 ≤ a.toNat % 2 ^ 63 → (b.toNat % 2 ^ 63 = a.toNat % 2 ^ 63 → sgn a = 1 → sgn b = 1) → val a + val b = 0 →
      addTail a b = if sgn a = 1 ∧ sgn b = 1 then 1#64 <<< 63 else 0#64 := by
    intro a b ha hb h1 h2 h3
    obtain ⟨t1, t2⟩ := tail_spec a b ha hb h1
    obtain ⟨u1, u2⟩ := t1.1 (by rw [h3, abs_zero]; positivity)
    have u3 := t2 h3
    obtain ⟨w1, w2, w3, w4⟩ := fields (addTail a b)
    have hexp : expo (addTail a b) = 0 := by
      by_contra hne
      have := val_ge _ hne
      rw [u2, abs_zero] at this
      exact absurd this (not_le.2 (by positivity))
    have hman := u1.2 hexp
    obtain ⟨a1, a2, a3, a4⟩ := fields a
    obtain ⟨b1, b2, b3, b4⟩ := fields b
    -- equal magnitudes
    have hmag : b.toNat % 2 ^ 63 = a.toNat % 2 ^ 63 := by
      have hv : |val a| = |val b| := by rw [eq_neg_of_add_eq_zero_left h3, abs_neg]
      rw [val_full a, val_full b, abs_mul, abs_pow, abs_neg, abs_one, one_pow, one_mul, abs_of_nonneg (by positivity),
        abs_mul, abs_pow, abs_neg, abs_one, one_pow, one_mul, abs_of_nonneg (by positivity)] at hv
      have ord : expo b ≤ expo a := by omega
      by_cases c : expo a = 0
      · have := ha.2 c
        have := hb.2 (by omega)
        omega
      · by_cases d : expo b = 0
        · exfalso
          have hb0 : fullMant b = 0 := by unfold fullMant; rw [if_pos d]
          rw [hb0, Nat.cast_zero, zero_mul] at hv
          rcases mul_eq_zero.1 hv with h4 | h4
          · have : fullMant a = 0 := by exact_mod_cast h4
            unfold fullMant at this
            rw [if_neg c] at this
            omega
          · exact absurd h4 (by positivity)
        · obtain ⟨t, ht⟩ : ∃ t : ℕ, expo a = expo b + t := ⟨expo a - expo b, by omega⟩
          have e1 : (2 : ℝ) ^ ((expo a : ℤ) - 1075) = (2 : ℝ) ^ t * (2 : ℝ) ^ ((expo b : ℤ) - 1075) := by
            rw [← zpow_natCast, ← zpow_add₀ (by norm_num), ht]; congr 1; push_cast; ring
          rw [e1, ← mul_assoc] at hv
          have hv2 := mul_right_cancel₀ (show ((2 : ℝ) ^ ((expo b : ℤ) - 1075)) ≠ 0 by positivity) hv
          have hv3 : fullMant a * 2 ^ t = fullMant b := by exact_mod_cast hv2
          unfold fullMant at hv3
          rw [if_neg c, if_neg d] at hv3
          have ht0 : t = 0 := by
            by_contra hne
            have : 2 ^ 1 ≤ 2 ^ t := Nat.pow_le_pow_right (by norm_num) (by omega)
            nlinarith
          rw [ht0] at hv3
          omega
    have hs := h2 hmag
    apply BitVec.eq_of_toNat_eq
    rw [w1, hexp, hman, u3]
    by_cases c : sgn a = 1
    · rw [if_pos ⟨c, hs c⟩, c]; rfl
    · rw [if_neg (fun hh => c hh.1), show sgn a = 0 by omega]; rfl
  rw [add_eq_tail x y x' y' e]
  rcases hp with ⟨rfl, rfl⟩ | ⟨rfl, rfl⟩
  · exact key _ _ hx hy hle hsg h
  · rw [key _ _ hy hx hle hsg (by rw [add_comm]; exact h)]
    simp only [and_comm]

/-! ## Negation and subtraction -/

theorem neg_fields (x : W) : sgn (neg x) = 1 - sgn x ∧ expo (neg x) = expo x ∧ mant (neg x) = mant x := by
  have hs := (fields x).2.1
  refine ⟨?_, ?_, ?_⟩
  · have h : sgn (neg x) = (sgn x + sgn (1#64 <<< 63)) % 2 := by rw [← toNat_sgn]; exact toNat_sgn_xor x _
    rw [h, show sgn (1#64 <<< 63) = 1 by unfold sgn; decide]; omega
  · unfold expo neg
    rw [BitVec.toNat_xor, ← Nat.shiftRight_eq_div_pow, Nat.shiftRight_xor_distrib, Nat.xor_mod_two_pow, show (1#64 <<< 63).toNat >>> 52 % 2 ^ 11 = 0 by decide, Nat.xor_zero,
      Nat.shiftRight_eq_div_pow]
  · unfold mant neg
    rw [BitVec.toNat_xor, Nat.xor_mod_two_pow, show (1#64 <<< 63).toNat % 2 ^ 52 = 0 by decide, Nat.xor_zero]

/-- **C99**: `fpr_neg` negates. -/
theorem C99_neg (x : W) : val (neg x) = - val x ∧ (Ok x → Ok (neg x)) := by
  obtain ⟨h1, h2, h3⟩ := neg_fields x
  constructor
  · rw [val_full, val_full, h1, h2]
    have : fullMant (neg x) = fullMant x := by unfold fullMant; rw [h2, h3]
    rw [this]
    have hs := (fields x).2.1
    have : sgn x = 0 ∨ sgn x = 1 := by omega
    rcases this with h | h <;> rw [h] <;> simp
  · unfold Ok; rw [h2, h3]; exact id

/-- **C99**: subtraction is correctly rounded. -/
theorem C99_sub (x y : W) (hx : Ok x) (hy : Ok y) : Rounded (val x - val y) (sub x y) := by
  have := C99_add x (neg y) hx ((C99_neg y).2 hy)
  rwa [(C99_neg y).1, ← sub_eq_add_neg] at this

end Verif.CRef.Fpr
