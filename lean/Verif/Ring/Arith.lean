import Verif.Ring.Model
import Mathlib.Algebra.Order.Group.Int
import Mathlib.Tactic.Ring
import Mathlib.Tactic.Linarith
import Mathlib.Tactic.LinearCombination
import Mathlib.Data.Int.GCD

/-! # Properties C19 (xgcd) and C20 (bitsize) -/

namespace Verif.Ring

theorem xgcdLoop_bezout (B N : Int) : ∀ (fuel : Nat) (b n x0 x1 y0 y1 : Int),
    b = x0 * B + y0 * N → n = x1 * B + y1 * N →
    (xgcdLoop fuel b n x0 x1 y0 y1).1 = (xgcdLoop fuel b n x0 x1 y0 y1).2.1 * B + (xgcdLoop fuel b n x0 x1 y0 y1).2.2 * N := by
  intro fuel
  induction fuel with
  | zero => intro b n x0 x1 y0 y1 h0 _; exact h0
  | succ fuel ih =>
    intro b n x0 x1 y0 y1 h0 h1
    simp only [xgcdLoop]
    split
    · exact h0
    · apply ih _ _ _ _ _ _ h1
      have h2 := Int.mul_fdiv_add_fmod b n
      linear_combination h2 + h0 - b.fdiv n * h1

theorem fmod_natAbs_lt (b n : Int) (h : n ≠ 0) : (b.fmod n).natAbs < n.natAbs := by
  rcases lt_or_gt_of_ne h with hn | hn
  · have e : b.fmod n = -((-b).fmod (-n)) := by rw [Int.neg_fmod_neg]; ring
    have h2 := Int.fmod_nonneg_of_pos (-b) (b := -n) (by omega)
    have h3 := Int.fmod_lt_of_pos (-b) (b := -n) (by omega)
    omega
  · have h2 := Int.fmod_nonneg_of_pos b hn
    have h3 := Int.fmod_lt_of_pos b hn
    omega

theorem gcd_fmod (b n : Int) : Int.gcd n (b.fmod n) = Int.gcd b n := by
  have h2 := Int.mul_fdiv_add_fmod b n
  have : b.fmod n = b + n * (-(b.fdiv n)) := by linear_combination h2
  rw [this, Int.gcd_add_mul_left_right, Int.gcd_comm]

theorem xgcdLoop_gcd : ∀ (fuel : Nat) (b n x0 x1 y0 y1 : Int), n.natAbs < fuel →
    (xgcdLoop fuel b n x0 x1 y0 y1).1.natAbs = Int.gcd b n := by
  intro fuel
  induction fuel with
  | zero => intro b n _ _ _ _ h; omega
  | succ fuel ih =>
    intro b n x0 x1 y0 y1 h
    simp only [xgcdLoop]
    split
    · rename_i h0; rw [h0, Int.gcd_zero_right]
    · rename_i h0
      rw [ih _ _ _ _ _ _ (by have := fmod_natAbs_lt b n h0; omega), gcd_fmod]

theorem fmod_sign (b n : Int) (h : n ≠ 0) : 0 ≤ b.fmod n * n := by
  rcases lt_or_gt_of_ne h with hn | hn
  · have e : b.fmod n = -((-b).fmod (-n)) := by rw [Int.neg_fmod_neg]; ring
    have h2 := Int.fmod_nonneg_of_pos (-b) (b := -n) (by omega)
    nlinarith
  · have h2 := Int.fmod_nonneg_of_pos b hn
    nlinarith

/-- the result has the sign of the second argument, when that is not zero -/
theorem xgcdLoop_sign : ∀ (fuel : Nat) (b n x0 x1 y0 y1 : Int), n.natAbs < fuel → n ≠ 0 →
    0 ≤ (xgcdLoop fuel b n x0 x1 y0 y1).1 * n := by
  intro fuel
  induction fuel with
  | zero => intro b n _ _ _ _ h; omega
  | succ fuel ih =>
    intro b n x0 x1 y0 y1 h h0
    simp only [xgcdLoop]
    rw [if_neg h0]
    by_cases hm : b.fmod n = 0
    · rw [hm]
      cases fuel with
      | zero => simp only [xgcdLoop]; nlinarith
      | succ f => simp only [xgcdLoop, if_true]; nlinarith
    · have hlt := fmod_natAbs_lt b n h0
      have h1 := ih n (b.fmod n) x1 (x0 - b.fdiv n * x1) y1 (y0 - b.fdiv n * y1) (by omega) hm
      have h2 := fmod_sign b n h0
      set d := (xgcdLoop fuel n (b.fmod n) x1 (x0 - b.fdiv n * x1) y1 (y0 - b.fdiv n * y1)).1
      rcases lt_or_gt_of_ne hm with hs | hs <;> rcases lt_or_gt_of_ne h0 with hs' | hs' <;> nlinarith

/-- **C19**: the number of loop iterations of `xgcd` is bounded, so any larger bound gives the same result (termination). -/
theorem xgcd_fuel : ∀ (fuel : Nat) (b n x0 x1 y0 y1 : Int), n.natAbs < fuel →
    xgcdLoop fuel b n x0 x1 y0 y1 = xgcdLoop (n.natAbs + 1) b n x0 x1 y0 y1 := by
  have key : ∀ (fuel : Nat) (b n x0 x1 y0 y1 : Int), n.natAbs < fuel →
      xgcdLoop (fuel + 1) b n x0 x1 y0 y1 = xgcdLoop fuel b n x0 x1 y0 y1 := by
    intro fuel
    induction fuel with
    | zero => intro b n _ _ _ _ h; omega
    | succ fuel ih =>
      intro b n x0 x1 y0 y1 h
      by_cases h0 : n = 0
      · simp only [xgcdLoop, if_pos h0]
      · rw [xgcdLoop, if_neg h0]
        conv_rhs => rw [xgcdLoop, if_neg h0]
        exact ih _ _ _ _ _ _ (by have := fmod_natAbs_lt b n h0; omega)
  intro fuel b n x0 x1 y0 y1 h
  obtain ⟨m, rfl⟩ : ∃ m, fuel = n.natAbs + 1 + m := ⟨fuel - (n.natAbs + 1), by omega⟩
  induction m with
  | zero => rfl
  | succ m ih => rw [← ih (by omega), ← Nat.add_assoc]; exact key _ _ _ _ _ _ _ (by omega)

/-- **C19**: `xgcd(b, n) = (d, u, v)` with `d = u b + v n` and `|d| = gcd(b, n)`. -/
theorem xgcd_spec (b n d u v : Int) (h : xgcd b n = (d, u, v)) : d = u * b + v * n ∧ d.natAbs = Int.gcd b n := by
  have h1 := xgcdLoop_bezout b n (n.natAbs + 1) b n 1 0 0 1 (by ring) (by ring)
  have h2 := xgcdLoop_gcd (n.natAbs + 1) b n 1 0 0 1 (by omega)
  unfold xgcd at h
  rw [h] at h1 h2
  exact ⟨h1, h2⟩

/-- **C19**: the sign.  The result is the gcd with the sign of `n`, or `b` itself when `n = 0`. -/
theorem xgcd_sign (b n : Int) : (xgcd b n).1 = if n = 0 then b else n.sign * Int.gcd b n := by
  have h2 := xgcdLoop_gcd (n.natAbs + 1) b n 1 0 0 1 (by omega)
  by_cases h0 : n = 0
  · subst h0; rfl
  · rw [if_neg h0]
    have h3 := xgcdLoop_sign (n.natAbs + 1) b n 1 0 0 1 (by omega) h0
    have hx : (xgcd b n).1 = (xgcdLoop (n.natAbs + 1) b n 1 0 0 1).1 := rfl
    rw [hx]
    set d := (xgcdLoop (n.natAbs + 1) b n 1 0 0 1).1
    rw [← h2]
    rcases lt_or_gt_of_ne h0 with hn | hn
    · rw [Int.sign_eq_neg_one_of_neg hn]
      have : d ≤ 0 := by by_contra hc; nlinarith
      omega
    · rw [Int.sign_eq_one_of_pos hn]
      have : 0 ≤ d := by by_contra hc; nlinarith
      omega

/-- **C19**: for non-negative arguments the first component is the gcd. -/
theorem xgcd_nonneg (b n : Int) (hb : 0 ≤ b) (hn : 0 ≤ n) : (xgcd b n).1 = Int.gcd b n := by
  rw [xgcd_sign]
  by_cases h0 : n = 0
  · rw [if_pos h0, h0, Int.gcd_zero_right]; omega
  · rw [if_neg h0, Int.sign_eq_one_of_pos (by omega), one_mul]

example : xgcd 240 46 = (2, -9, 47) := by decide
example : xgcd 3 (-1) = (-1, 0, 1) := by decide

theorem bitsizeLoop_spec : ∀ (fuel val res : Nat), val ≤ fuel →
    ∃ m, bitsizeLoop fuel val res = res + 8 * m ∧ val < 256 ^ m ∧ (∀ j, val < 256 ^ j → m ≤ j) := by
  intro fuel
  induction fuel with
  | zero => intro val res h; exact ⟨0, rfl, by simp; omega, fun _ _ => by omega⟩
  | succ fuel ih =>
    intro val res h
    unfold bitsizeLoop
    by_cases h0 : val = 0
    · rw [if_pos h0]; exact ⟨0, rfl, by rw [h0]; norm_num, fun _ _ => by omega⟩
    · rw [if_neg h0]
      have e : val >>> 8 = val / 256 := Nat.shiftRight_eq_div_pow val 8
      obtain ⟨m, h1, h2, h3⟩ := ih (val >>> 8) (res + 8) (by rw [e]; omega)
      refine ⟨m + 1, by rw [h1]; ring, ?_, ?_⟩
      · rw [e] at h2; rw [pow_succ]; omega
      · intro j hj
        cases j with
        | zero => simp at hj; omega
        | succ j =>
          have := h3 j (by rw [e]; rw [pow_succ] at hj; omega)
          omega

/-- **C20**: `bitsize(a)` is the least multiple of 8 such that `|a| < 2^bitsize(a)`. -/
theorem bitsize_spec (a : Int) : 8 ∣ bitsize a ∧ a.natAbs < 2 ^ bitsize a ∧ ∀ s, 8 ∣ s → a.natAbs < 2 ^ s → bitsize a ≤ s := by
  obtain ⟨m, h1, h2, h3⟩ := bitsizeLoop_spec a.natAbs a.natAbs 0 (le_refl _)
  have hb : bitsize a = 8 * m := by unfold bitsize; rw [h1]; ring
  have hp : ∀ j, (256 : Nat) ^ j = 2 ^ (8 * j) := by intro j; rw [pow_mul]; norm_num
  rw [hb]
  refine ⟨⟨m, rfl⟩, by rw [← hp]; exact h2, ?_⟩
  rintro s ⟨j, rfl⟩ hs
  rw [← hp] at hs
  have := h3 j hs
  omega

/-- **C20**: only zero has bit size zero, and the size is monotone in the magnitude. -/
theorem bitsize_mono (a b : Int) (h : a.natAbs ≤ b.natAbs) : bitsize a ≤ bitsize b :=
  (bitsize_spec a).2.2 _ (bitsize_spec b).1 (lt_of_le_of_lt h (bitsize_spec b).2.1)

example : bitsize 255 = 8 ∧ bitsize 256 = 16 ∧ bitsize (-65536) = 24 ∧ bitsize 0 = 0 := by decide

end Verif.Ring
