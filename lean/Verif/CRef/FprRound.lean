import Verif.CRef.Fpr
import Verif.CRef.FprSpec
import Mathlib.Tactic.Ring
import Mathlib.Tactic.Linarith
import Mathlib.Tactic.FieldSimp
import Mathlib.Tactic.NormNum
import Mathlib.Tactic.IntervalCases
import Mathlib.Tactic.Push
import Mathlib.Tactic.Positivity
import Mathlib.Algebra.Order.Field.Power

/-! # Rounding: the specification is the nearest 53-bit number; the packing function rounds correctly -/

namespace Verif.CRef.Fpr

/-! ## Facts about the specification -/

theorem rne_neg (r : ℝ) : rne (-r) = - rne r := by
  by_cases hi : (⌊r⌋ : ℝ) = r
  · have h1 : r = ((⌊r⌋ : ℤ) : ℝ) := hi.symm
    have h2 : ⌊-r⌋ = -⌊r⌋ := by rw [Int.floor_neg, Int.ceil_eq_iff.2]; constructor <;> [linarith; linarith]
    unfold rne
    rw [h2]
    rw [if_pos (by push_cast; linarith), if_pos (by linarith)]
  · have hlt : (⌊r⌋ : ℝ) < r := lt_of_le_of_ne (Int.floor_le r) hi
    have hlt2 := Int.lt_floor_add_one r
    have h2 : ⌊-r⌋ = -⌊r⌋ - 1 := by
      rw [Int.floor_eq_iff]
      push_cast
      constructor <;> linarith
    unfold rne
    rw [h2]
    push_cast
    rcases lt_trichotomy (r - ⌊r⌋) (1 / 2) with h | h | h
    · rw [if_neg (by linarith), if_pos (by linarith), if_pos h]; ring
    · have c1 : ¬ (-r - (-(⌊r⌋ : ℝ) - 1) < 1 / 2) := by linarith
      have c2 : ¬ (1 / 2 < -r - (-(⌊r⌋ : ℝ) - 1)) := by linarith
      have c3 : ¬ (r - (⌊r⌋ : ℝ) < 1 / 2) := by linarith
      have c4 : ¬ (1 / 2 < r - (⌊r⌋ : ℝ)) := by linarith
      rw [if_neg c1, if_neg c2, if_neg c3, if_neg c4]
      by_cases he : Even ⌊r⌋
      · have : ¬ Even (-⌊r⌋ - 1) := by rw [Int.even_sub, even_neg]; simp [he]
        rw [if_pos he, if_neg this]; ring
      · have : Even (-⌊r⌋ - 1) := by rw [Int.even_sub, even_neg]; simp [he]
        rw [if_neg he, if_pos this]; ring
    · rw [if_pos (by linarith), if_neg (by linarith), if_pos h]; ring

theorem rnd_neg (r : ℝ) : rnd (-r) = - rnd r := by
  unfold rnd
  by_cases h : r = 0
  · simp [h]
  · rw [if_neg (by simpa using h), if_neg h, abs_neg, neg_div, rne_neg]; push_cast; ring

theorem rnd_sign (s : ℕ) (r : ℝ) : rnd ((-1) ^ s * r) = (-1) ^ s * rnd r := by
  rcases Nat.even_or_odd s with h | h
  · rw [h.neg_one_pow]; simp
  · rw [h.neg_one_pow, neg_one_mul, neg_one_mul, rnd_neg]

/-- The nearest integer is at distance at most one half, and even if the distance is one half. -/
theorem rne_dist (r : ℝ) : |r - rne r| ≤ 1 / 2 ∧ (|r - rne r| = 1 / 2 → Even (rne r)) := by
  have h0 := Int.floor_le r
  have h1 := Int.lt_floor_add_one r
  unfold rne
  split
  · next h => rw [abs_of_nonneg (by linarith)]; exact ⟨by linarith, fun e => by linarith⟩
  · next h =>
    split
    · next h2 => push_cast; rw [abs_of_nonpos (by linarith)]; exact ⟨by linarith, fun e => by linarith⟩
    · next h2 =>
      have : r - ⌊r⌋ = 1 / 2 := by linarith
      split
      · next h3 => rw [abs_of_nonneg (by linarith)]; exact ⟨by linarith, fun _ => h3⟩
      · next h3 =>
        push_cast
        rw [abs_of_nonpos (by linarith)]
        refine ⟨by linarith, fun _ => ?_⟩
        rw [Int.even_add]; simp [h3]

/-- The unit in the last place of a number with leading bit `2^(k+52)`. -/
theorem log_of_range (R : ℝ) (k : ℤ) (h1 : (2 : ℝ) ^ k ≤ R) (h2 : R < (2 : ℝ) ^ (k + 1)) : Int.log 2 R = k := by
  have hpos : 0 < R := lt_of_lt_of_le (by positivity) h1
  apply le_antisymm
  · have := (Int.lt_zpow_iff_log_lt (b := 2) (by norm_num) (x := k + 1) hpos).1 (by exact_mod_cast h2)
    omega
  · exact (Int.zpow_le_iff_le_log (b := 2) (by norm_num) hpos).1 (by exact_mod_cast h1)

theorem rnd_of_range (r : ℝ) (k : ℤ) (h1 : (2 : ℝ) ^ (k + 52) ≤ r) (h2 : r < (2 : ℝ) ^ (k + 53)) : rnd r = rne (r / (2 : ℝ) ^ k) * (2 : ℝ) ^ k := by
  have hpos : 0 < r := lt_of_lt_of_le (by positivity) h1
  unfold rnd
  rw [if_neg (ne_of_gt hpos), abs_of_pos hpos, log_of_range r (k + 52) h1 (by rw [show k + 52 + 1 = k + 53 by ring]; exact h2), show k + 52 - 52 = k by ring]

theorem rne_nat_add (a : ℤ) (r : ℝ) (h : 0 ≤ r) (ha : (r = 1 / 2 → Even a)) (hr : r ≤ 1 / 2) : rne (a + r) = a := by
  have hf : ⌊(a : ℝ) + r⌋ = a := by rw [Int.floor_eq_iff]; constructor <;> linarith
  unfold rne
  rw [hf]
  by_cases c : (a : ℝ) + r - a < 1 / 2
  · rw [if_pos c]
  · rw [if_neg c, if_neg (by linarith), if_pos (ha (by linarith))]

theorem rne_nat_add_up (a : ℤ) (r : ℝ) (h1 : r < 1) (ha : (r = 1 / 2 → ¬ Even a)) (hr : 1 / 2 ≤ r) : rne (a + r) = a + 1 := by
  have hf : ⌊(a : ℝ) + r⌋ = a := by rw [Int.floor_eq_iff]; constructor <;> linarith
  unfold rne
  rw [hf]
  by_cases c : 1 / 2 < (a : ℝ) + r - a
  · rw [if_neg (by linarith), if_pos c]
  · rw [if_neg (by linarith), if_neg c, if_neg (ha (by linarith))]

/-! ## Nearest among all 53-bit numbers -/

/-- A number with at most 53 significant bits (any exponent). -/
def Is53 (v : ℝ) : Prop := ∃ (a k : ℤ), |a| < 2 ^ 53 ∧ v = a * (2 : ℝ) ^ k

theorem int_mul_zpow_of_ge (a k j : ℤ) (h : j ≤ k) : ∃ b : ℤ, (a : ℝ) * (2 : ℝ) ^ k = b * (2 : ℝ) ^ j := by
  refine ⟨a * 2 ^ (k - j).toNat, ?_⟩
  push_cast
  rw [mul_assoc, ← zpow_natCast, ← zpow_add₀ (by norm_num), Int.toNat_of_nonneg (by omega)]
  congr 2; ring

/-- A 53-bit number close to `r` is a multiple of the unit in the last place of `r`, or smaller than `r`'s leading power of two. -/
theorem is53_multiple (v : ℝ) (hv : Is53 v) (k : ℤ) (hk : (2 : ℝ) ^ (k + 52) ≤ |v|) : ∃ b : ℤ, v = b * (2 : ℝ) ^ k := by
  obtain ⟨a, j, ha, rfl⟩ := hv
  apply int_mul_zpow_of_ge
  by_contra hc
  rw [abs_mul, abs_of_pos (show (0 : ℝ) < (2 : ℝ) ^ j by positivity)] at hk
  have h1 : (|(a : ℝ)|) ≤ 2 ^ 53 - 1 := by
    have : |a| ≤ 2 ^ 53 - 1 := by omega
    exact_mod_cast this
  have h2 : (2 : ℝ) ^ j ≤ (2 : ℝ) ^ (k - 1) := zpow_le_zpow_right₀ (by norm_num) (by omega)
  have h3 : (2 : ℝ) ^ (k + 52) = 2 ^ 53 * (2 : ℝ) ^ (k - 1) := by
    rw [← zpow_natCast, ← zpow_add₀ (by norm_num)]; congr 1; push_cast; ring
  have h4 : (0 : ℝ) < (2 : ℝ) ^ (k - 1) := by positivity
  have h5 : |(a : ℝ)| * (2 : ℝ) ^ j ≤ (2 ^ 53 - 1) * (2 : ℝ) ^ (k - 1) := mul_le_mul h1 h2 (by positivity) (by norm_num)
  rw [h3] at hk
  nlinarith

/-- **The specification is right**: `rnd r` is a 53-bit number, no 53-bit number is nearer to `r`, and a different 53-bit number at the same distance means that the integer mantissa chosen is even. -/
theorem rnd_nearest (r : ℝ) (hr : r ≠ 0) : Is53 (rnd r) ∧ ∀ v, Is53 v → |r - rnd r| ≤ |r - v| ∧ (|r - rnd r| = |r - v| → v ≠ rnd r → ∃ a k : ℤ, rnd r = a * (2 : ℝ) ^ k ∧ Even a ∧ 2 ^ 52 ≤ |a|) := by
  obtain ⟨k, hk⟩ : ∃ k, Int.log 2 |r| - 52 = k := ⟨_, rfl⟩
  have hpos : 0 < |r| := abs_pos.2 hr
  have hu : (0 : ℝ) < (2 : ℝ) ^ k := by positivity
  have hlo : (2 : ℝ) ^ (k + 52) ≤ |r| := by
    have := (Int.zpow_le_iff_le_log (b := 2) (by norm_num) (x := k + 52) hpos).2 (by omega)
    exact_mod_cast this
  have hhi : |r| < (2 : ℝ) ^ (k + 53) := by
    have := (Int.lt_zpow_iff_log_lt (b := 2) (by norm_num) (x := k + 53) hpos).2 (by omega)
    exact_mod_cast this
  have h52 : (2 : ℝ) ^ (k + 52) = 2 ^ 52 * (2 : ℝ) ^ k := by rw [zpow_add₀ (by norm_num), mul_comm]; norm_num
  have h53 : (2 : ℝ) ^ (k + 53) = 2 ^ 53 * (2 : ℝ) ^ k := by rw [zpow_add₀ (by norm_num), mul_comm]; norm_num
  have hr' : rnd r = rne (r / (2 : ℝ) ^ k) * (2 : ℝ) ^ k := by unfold rnd; rw [if_neg hr, hk]
  obtain ⟨m, hm⟩ : ∃ m, rne (r / (2 : ℝ) ^ k) = m := ⟨_, rfl⟩
  obtain ⟨x, hx⟩ : ∃ x, r / (2 : ℝ) ^ k = x := ⟨_, rfl⟩
  have hrx : r = x * (2 : ℝ) ^ k := by rw [← hx]; field_simp
  obtain ⟨d1, d2⟩ := rne_dist x
  rw [hx] at hm hr'
  rw [hm] at d1 d2 hr'
  have hax : |r| = |x| * (2 : ℝ) ^ k := by rw [hrx, abs_mul, abs_of_pos hu]
  rw [hax, h52] at hlo
  rw [hax, h53] at hhi
  have hxlo : (2 : ℝ) ^ 52 ≤ |x| := le_of_mul_le_mul_right hlo hu
  have hxhi : |x| < (2 : ℝ) ^ 53 := lt_of_mul_lt_mul_right hhi hu.le
  have hmR : |(m : ℝ)| ≤ |x| + 1 / 2 := by
    have : |(m : ℝ)| - |x| ≤ |(m : ℝ) - x| := abs_sub_abs_le_abs_sub _ _
    rw [abs_sub_comm] at d1
    linarith
  have hmR2 : |x| ≤ |(m : ℝ)| + 1 / 2 := by
    have : |x| - |(m : ℝ)| ≤ |x - m| := abs_sub_abs_le_abs_sub _ _
    linarith
  have hm53 : |m| ≤ 2 ^ 53 := by
    have : (|m| : ℝ) < 2 ^ 53 + 1 := by linarith
    have : |m| < 2 ^ 53 + 1 := by exact_mod_cast this
    omega
  have hm52 : 2 ^ 52 ≤ |m| := by
    have : (2 : ℝ) ^ 52 - 1 < |m| := by push_cast; linarith
    have : (2 : ℤ) ^ 52 - 1 < |m| := by exact_mod_cast this
    omega
  refine ⟨?_, ?_⟩
  · rw [hr']
    by_cases c : |m| < 2 ^ 53
    · exact ⟨m, k, c, rfl⟩
    · have hme : |m| = 2 ^ 53 := by omega
      rcases (abs_eq (by norm_num)).1 hme with h | h
      · exact ⟨1, k + 53, by norm_num, by rw [h, h53]; push_cast; ring⟩
      · exact ⟨-1, k + 53, by norm_num, by rw [h, h53]; push_cast; ring⟩
  · intro v hv
    have hdr : |r - rnd r| = |x - m| * (2 : ℝ) ^ k := by rw [hr', hrx, ← sub_mul, abs_mul, abs_of_pos hu]
    rw [hdr]
    by_cases hb : (2 : ℝ) ^ (k + 52) ≤ |v|
    · obtain ⟨b, rfl⟩ := is53_multiple v hv k hb
      have hdv : |r - b * (2 : ℝ) ^ k| = |x - b| * (2 : ℝ) ^ k := by rw [hrx, ← sub_mul, abs_mul, abs_of_pos hu]
      rw [hdv]
      by_cases hbm : b = m
      · subst hbm; exact ⟨le_rfl, fun _ h => absurd hr'.symm h⟩
      · have hge : (1 : ℝ) ≤ |(m : ℝ) - b| := by
          have : (1 : ℤ) ≤ |m - b| := by
            have : m - b ≠ 0 := fun h => hbm (by omega)
            exact Int.one_le_abs this
          exact_mod_cast this
        have htri : |(m : ℝ) - b| ≤ |x - m| + |x - b| := by
          rw [abs_sub_comm x m]
          exact abs_sub_le (m : ℝ) x b
        refine ⟨mul_le_mul_of_nonneg_right (by linarith) hu.le, fun he _ => ?_⟩
        have he' : |x - m| = |x - b| := mul_right_cancel₀ hu.ne' he
        exact ⟨m, k, hr', d2 (by linarith), hm52⟩
    · -- `v` is below the leading power of two of `r`
      push Not at hb
      rw [h52] at hb
      obtain ⟨y, hy⟩ : ∃ y, v = y * (2 : ℝ) ^ k := ⟨v / (2 : ℝ) ^ k, by field_simp⟩
      have hdv : |r - v| = |x - y| * (2 : ℝ) ^ k := by rw [hrx, hy, ← sub_mul, abs_mul, abs_of_pos hu]
      have hylt : |y| < 2 ^ 52 := by
        rw [hy, abs_mul, abs_of_pos hu] at hb
        exact lt_of_mul_lt_mul_right hb hu.le
      rw [hdv]
      -- distance of `x` to `±2^52` bounds both
      have key : |x - m| ≤ |x| - 2 ^ 52 := by
        rcases le_or_gt 0 x with hx0 | hx0
        · rw [abs_of_nonneg hx0] at hxlo hxhi ⊢
          rcases (le_or_gt (m : ℝ) x) with hmx | hmx
          · rw [abs_of_nonneg (by linarith)]
            have hm0 : 0 ≤ m := by
              have : (-1 : ℝ) < m := by have := (abs_le.1 d1).2; linarith
              have : (-1 : ℤ) < m := by exact_mod_cast this
              omega
            have : (2 : ℝ) ^ 52 ≤ m := by rw [abs_of_nonneg hm0] at hm52; exact_mod_cast hm52
            linarith
          · -- rounded up, then `x` is at least `m - 1/2` and `m - 1 ≥ 2^52`
            rw [abs_of_neg (by linarith)]
            have h1 := (abs_le.1 d1).1
            have : (2 : ℝ) ^ 52 < m := by linarith
            have h2 : (2 : ℤ) ^ 52 < m := by exact_mod_cast this
            have h3 : (2 : ℝ) ^ 52 + 1 ≤ m := by exact_mod_cast h2
            linarith
        · rw [abs_of_neg hx0] at hxlo hxhi ⊢
          rcases (le_or_gt (m : ℝ) x) with hmx | hmx
          · rw [abs_of_nonneg (by linarith)]
            have h1 := (abs_le.1 d1).2
            have : (m : ℝ) < -2 ^ 52 ∨ x = -2 ^ 52 := by
              rcases lt_or_eq_of_le hxlo with h | h
              · left; linarith
              · right; linarith
            rcases this with this | this
            · have h2 : m < -(2 : ℤ) ^ 52 := by exact_mod_cast this
              have h3 : (m : ℝ) + 1 ≤ -2 ^ 52 := by exact_mod_cast h2
              linarith
            · have : (m : ℝ) = x := by
                rw [this] at hmx d1 ⊢
                have h4 := (abs_le.1 d1).2
                have h5 : (-2 : ℝ) ^ 52 = 2 ^ 52 := by norm_num
                have h6 : -(2 : ℤ) ^ 52 - 1 < m := by
                  have : -(2 : ℝ) ^ 52 - 1 < m := by linarith
                  exact_mod_cast this
                have h7 : m ≤ -(2 : ℤ) ^ 52 := by exact_mod_cast hmx
                have h8 : m = -(2 : ℤ) ^ 52 := by omega
                rw [h8]; push_cast; ring
              linarith
          · rw [abs_of_neg (by linarith)]
            have hm0 : m ≤ 0 := by
              have : (m : ℝ) < 1 := by have := (abs_le.1 d1).1; linarith
              have : m < (1 : ℤ) := by exact_mod_cast this
              omega
            have : (2 : ℝ) ^ 52 ≤ -m := by rw [abs_of_nonpos hm0] at hm52; exact_mod_cast hm52
            linarith
      have hgt : |x| - 2 ^ 52 < |x - y| := by
        have : |x| - |y| ≤ |x - y| := abs_sub_abs_le_abs_sub _ _
        linarith
      refine ⟨mul_le_mul_of_nonneg_right (by linarith) hu.le, fun he _ => ?_⟩
      have he' : |x - m| = |x - y| := mul_right_cancel₀ hu.ne' he
      linarith

end Verif.CRef.Fpr
