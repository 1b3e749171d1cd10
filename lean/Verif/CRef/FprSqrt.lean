import Verif.CRef.FprDiv
import Mathlib.Analysis.Real.Sqrt

/-! # C99: the square root is correctly rounded -/

namespace Verif.CRef.Fpr

/-- One step: the next bit `r` of the root is taken exactly when the square stays below `N`. -/
theorem sqrtStep_spec (xu q s r : W) (N : ℕ) (hN : N < 2 ^ 108) (hr : 0 < r.toNat) (hr2 : r.toNat ≤ 2 ^ 53) (hs : s.toNat = 2 * q.toNat)
    (h1 : xu.toNat * r.toNat + q.toNat ^ 2 = N) (h2 : N < (q.toNat + 2 * r.toNat) ^ 2) :
    ∃ x' q' s' r' : W, sqrtStep (xu, q, s, r) = (x', q', s', r') ∧ x'.toNat * r.toNat + 2 * q'.toNat ^ 2 = 2 * N ∧ N < (q'.toNat + r.toNat) ^ 2 ∧ s'.toNat = 2 * q'.toNat ∧ r'.toNat = r.toNat / 2 := by
  have hq : q.toNat < 2 ^ 54 := by
    by_contra h
    have : (2 ^ 54) ^ 2 ≤ q.toNat ^ 2 := Nat.pow_le_pow_left (by omega) 2
    omega
  have hxu : xu.toNat < 4 * q.toNat + 4 * r.toNat := by
    by_contra h
    have : (4 * q.toNat + 4 * r.toNat) * r.toNat ≤ xu.toNat * r.toNat := Nat.mul_le_mul_right _ (by omega)
    nlinarith
  unfold sqrtStep
  simp only
  have ht : (s + r).toNat = 2 * q.toNat + r.toNat := by rw [BitVec.toNat_add, hs]; omega
  have hr' : (r >>> 1).toNat = r.toNat / 2 := by rw [toNat_shr]; omega
  rw [geMask xu (s + r) (by omega) (by rw [ht]; omega), ht]
  by_cases c : 2 * q.toNat + r.toNat ≤ xu.toNat
  · rw [if_pos c, BitVec.and_allOnes, BitVec.and_allOnes, BitVec.and_allOnes]
    have hr1 : (r <<< 1).toNat = 2 * r.toNat := by rw [toNat_shl _ _ (by omega)]; omega
    have hd : (xu - (s + r)).toNat = xu.toNat - (2 * q.toNat + r.toNat) := by
      rw [BitVec.toNat_sub, ht]; omega
    have hq' : (q + r).toNat = q.toNat + r.toNat := by rw [BitVec.toNat_add]; omega
    refine ⟨_, _, _, _, rfl, ?_, ?_, ?_, hr'⟩
    · rw [toNat_shl _ _ (by rw [hd]; omega), hd, hq']
      obtain ⟨d, hd'⟩ : ∃ d, xu.toNat = d + (2 * q.toNat + r.toNat) := ⟨_, (Nat.sub_add_cancel c).symm⟩
      rw [hd', Nat.add_sub_cancel, ← h1, hd']; ring
    · rw [hq']; convert h2 using 2; ring
    · rw [BitVec.toNat_add, hs, hr1, hq']; omega
  · rw [if_neg c, BitVec.and_zero, BitVec.and_zero, BitVec.and_zero, BitVec.add_zero, BitVec.sub_zero, BitVec.add_zero]
    refine ⟨_, _, _, _, rfl, ?_, ?_, hs, hr'⟩
    · rw [toNat_shl _ _ (by omega), ← h1]; ring
    · rw [← h1]
      have : xu.toNat * r.toNat < (2 * q.toNat + r.toNat) * r.toNat := Nat.mul_lt_mul_of_pos_right (by omega) hr
      nlinarith

/-- The state after `i ≤ 53` steps. -/
theorem sqrtLoop (xu : W) (hxu : xu.toNat < 2 ^ 55) (i : ℕ) (hi : i ≤ 53) :
    ∃ x q s r : W, (List.range i).foldl (fun a _ => sqrtStep a) (xu, 0, 0, 1#64 <<< 53) = (x, q, s, r) ∧ r.toNat = 2 ^ (53 - i) ∧ s.toNat = 2 * q.toNat ∧
      x.toNat * r.toNat + q.toNat ^ 2 = xu.toNat * 2 ^ 53 ∧ xu.toNat * 2 ^ 53 < (q.toNat + 2 * r.toNat) ^ 2 := by
  induction i with
  | zero =>
    refine ⟨xu, 0, 0, 1#64 <<< 53, rfl, rfl, rfl, ?_, ?_⟩
    · show xu.toNat * 2 ^ 53 + 0 = _
      omega
    · show _ < (0 + 2 * 2 ^ 53) ^ 2
      omega
  | succ i ih =>
    obtain ⟨x, q, s, r, e, hr, hs, h1, h2⟩ := ih (by omega)
    rw [List.range_succ, List.foldl_append, e]
    simp only [List.foldl_cons, List.foldl_nil]
    have hr1 : r.toNat = 2 * 2 ^ (53 - (i + 1)) := by rw [hr, ← pow_succ']; congr 1; omega
    have hp : 0 < 2 ^ (53 - (i + 1)) := by positivity
    have hp2 : r.toNat ≤ 2 ^ 53 := by rw [hr]; exact Nat.pow_le_pow_right (by norm_num) (by omega)
    obtain ⟨x', q', s', r', e', g1, g2, g3, g4⟩ := sqrtStep_spec x q s r (xu.toNat * 2 ^ 53) (by omega) (by omega) hp2 hs h1 h2
    have hr' : r'.toNat = 2 ^ (53 - (i + 1)) := by rw [g4, hr1]; omega
    refine ⟨x', q', s', r', e', hr', g3, ?_, ?_⟩
    · rw [hr1] at g1; rw [hr']
      have : 2 * (x'.toNat * 2 ^ (53 - (i + 1)) + q'.toNat ^ 2) = 2 * (xu.toNat * 2 ^ 53) := by rw [← g1]; ring
      omega
    · rw [hr', ← hr1]; exact g2

/-- The loop computes the integer square root of `2^53·xu` and whether it is exact. -/
theorem sqrtLoop_end (xu : W) (hxu : xu.toNat < 2 ^ 55) :
    ∃ x q s r : W, (List.range 54).foldl (fun a _ => sqrtStep a) (xu, 0, 0, 1#64 <<< 53) = (x, q, s, r) ∧ q.toNat ^ 2 ≤ xu.toNat * 2 ^ 53 ∧
      xu.toNat * 2 ^ 53 < (q.toNat + 1) ^ 2 ∧ (x = 0 ↔ q.toNat ^ 2 = xu.toNat * 2 ^ 53) := by
  obtain ⟨x, q, s, r, e, hr, hs, h1, h2⟩ := sqrtLoop xu hxu 53 le_rfl
  have hr1 : r.toNat = 1 := hr
  obtain ⟨x', q', s', r', e', g1, g2, _, _⟩ := sqrtStep_spec x q s r (xu.toNat * 2 ^ 53) (by omega) (by omega) (by omega) hs h1 h2
  rw [hr1] at g1 g2
  refine ⟨x', q', s', r', ?_, by omega, g2, ?_⟩
  · rw [List.range_succ, List.foldl_append, e]
    exact e'
  · constructor
    · intro h; rw [h] at g1; simp at g1; omega
    · intro h; apply BitVec.eq_of_toNat_eq; rw [h] at g1; show _ = 0; omega

/-- **C99**: the square root is correctly rounded; the sign of the operand is ignored. -/
theorem C99_sqrt (x : W) : Rounded (Real.sqrt |val x|) (sqrt x) := by
  unfold sqrt
  simp only
  obtain ⟨xu, hxu⟩ : ∃ a : W, (x &&& ((1#64 <<< 52) - 1#64)) ||| (1#64 <<< 52) = a := ⟨_, rfl⟩
  have ex : xu.toNat = 2 ^ 52 + mant x := by rw [← hxu]; exact toNat_full x
  have mx := (fields x).2.2.2
  have fx := (fields x).2.2.1
  rw [hxu, toNat_expo]
  by_cases hz : expo x = 0
  · have hd : (expo x + 0x7FF) >>> 11 = 0 := by rw [hz]; rfl
    rw [hd, and_neg_zero]
    have hv : Real.sqrt |val x| = 0 := by rw [val_eq_zero x hz, abs_zero, Real.sqrt_zero]
    obtain ⟨z1, z2, _⟩ := ok_zero _ _ (pack_zero 0 (by norm_num) (((expo x : ℤ) - 1023) / 2 - 54) 0 (.inl rfl))
    rw [hv]
    refine ⟨fun _ => ⟨z1, z2⟩, fun h => ?_⟩
    rw [abs_zero] at h
    exact absurd h (not_le.2 (by positivity))
  · have hd : (expo x + 0x7FF) >>> 11 = 1 := by rw [Nat.shiftRight_eq_div_pow]; omega
    rw [hd, and_neg_one]
    obtain ⟨b, hb⟩ : ∃ b : ℕ, ((expo x : ℤ) - 1023) % 2 = b := ⟨(((expo x : ℤ) - 1023) % 2).toNat, by omega⟩
    have hb2 : b < 2 := by omega
    obtain ⟨h, hh⟩ : ∃ h : ℤ, ((expo x : ℤ) - 1023) / 2 = h := ⟨_, rfl⟩
    have hexp : (expo x : ℤ) - 1023 = 2 * h + b := by omega
    rw [hb, hh]
    have hX : (xu + (xu &&& -(BitVec.ofInt 64 (b : ℤ)))).toNat = xu.toNat * 2 ^ b := by
      have : b = 0 ∨ b = 1 := by omega
      rcases this with rfl | rfl
      · rw [show BitVec.ofInt 64 ((0 : ℕ) : ℤ) = 0#64 from rfl, and_neg_zero]; simp
      · rw [show BitVec.ofInt 64 ((1 : ℕ) : ℤ) = 1#64 from rfl, and_neg_one, BitVec.toNat_add]; omega
    have hXb : xu.toNat ≤ xu.toNat * 2 ^ b ∧ xu.toNat * 2 ^ b < 2 ^ 54 := by
      have : b = 0 ∨ b = 1 := by omega
      rcases this with rfl | rfl <;> omega
    obtain ⟨X, hX'⟩ : ∃ X : W, xu + (xu &&& -(BitVec.ofInt 64 (b : ℤ))) = X := ⟨_, rfl⟩
    rw [hX'] at hX ⊢
    have hX1 : (X <<< 1).toNat = 2 * X.toNat := by rw [toNat_shl _ _ (by omega)]; omega
    obtain ⟨y, q, s, r, e, g1, g2, g3⟩ := sqrtLoop_end (X <<< 1) (by omega)
    rw [e]
    simp only
    have hN : (X <<< 1).toNat * 2 ^ 53 = X.toNat * 2 ^ 54 := by rw [hX1]; ring
    rw [hN] at g1 g2 g3
    have hqlo : 2 ^ 53 ≤ q.toNat := by
      by_contra hlt
      have : (q.toNat + 1) ^ 2 ≤ (2 ^ 53) ^ 2 := Nat.pow_le_pow_left (by omega) 2
      omega
    have hqhi : q.toNat < 2 ^ 54 := by
      by_contra hlt
      have : (2 ^ 54) ^ 2 ≤ q.toNat ^ 2 := Nat.pow_le_pow_left (by omega) 2
      omega
    have hq1 : (q <<< 1).toNat = 2 * q.toNat := by rw [toNat_shl _ _ (by omega)]; omega
    rw [nonzero64]
    have hq0 : (q <<< 1 ||| BitVec.ofNat 64 (decide (y ≠ 0)).toNat).toNat = 2 * q.toNat + (decide (y ≠ 0)).toNat := by
      rw [BitVec.toNat_or, hq1]
      by_cases c : y = 0
      · rw [decide_eq_false (by simpa using c)]; exact Nat.or_zero _
      · rw [decide_eq_true (by simpa using c)]; show 2 * q.toNat ||| 1 = 2 * q.toNat + 1
        rw [or_one]; omega
    obtain ⟨q', hq'⟩ : ∃ q', q <<< 1 ||| BitVec.ofNat 64 (decide (y ≠ 0)).toNat = q' := ⟨_, rfl⟩
    rw [hq'] at hq0 ⊢
    obtain ⟨N, hNN⟩ : ∃ N, X.toNat * 2 ^ 54 = N := ⟨_, rfl⟩
    rw [hNN] at g1 g2 g3
    have r1 : (q.toNat : ℝ) ≤ Real.sqrt N := Real.le_sqrt_of_sq_le (by exact_mod_cast g1)
    have r2 : Real.sqrt N < (q.toNat : ℝ) + 1 := by
      rw [Real.sqrt_lt' (by positivity)]; exact_mod_cast g2
    have hst : Sticky q'.toNat (2 * Real.sqrt N) := by
      rw [hq0]
      by_cases c : y = 0
      · rw [decide_eq_false (by simpa using c)]
        simp only [Bool.toNat_false, Nat.add_zero]
        have : Real.sqrt N = q.toNat := by
          rw [← g3.1 c]; push_cast; exact Real.sqrt_sq (by positivity)
        rw [this]
        exact_mod_cast sticky_exact (2 * q.toNat)
      · rw [decide_eq_true (by simpa using c)]
        have r3 : (q.toNat : ℝ) < Real.sqrt N := by
          apply Real.lt_sqrt_of_sq_lt
          have : q.toNat ^ 2 < N := lt_of_le_of_ne g1 (fun hh => c (g3.2 hh))
          exact_mod_cast this
        refine ⟨?_, fun he => absurd he (by rw [Nat.even_iff]; show ¬(2 * q.toNat + 1) % 2 = 0; omega)⟩
        rw [abs_lt]
        simp only [Bool.toNat_true]
        push_cast
        constructor <;> linarith
    have := pack_spec 0 (by norm_num) (h - 54) (by omega) q' (by omega) (by have := Bool.toNat_le (decide (y ≠ 0)); omega) _ hst
    convert this using 1
    rw [pow_zero, one_mul]
    have hv : |val x| = (N : ℝ) * ((2 : ℝ) ^ (h - 53)) ^ 2 := by
      rw [val_ne x hz, abs_mul, abs_pow, abs_neg, abs_one, one_pow, one_mul, abs_of_pos (by positivity), ← hNN, hX, ← ex,
        show (expo x : ℤ) - 1075 = (2 * h + b) - 52 by omega, sq, ← zpow_add₀ (by norm_num)]
      rw [Nat.cast_mul, Nat.cast_mul, Nat.cast_pow, Nat.cast_pow, Nat.cast_ofNat]
      rw [← zpow_natCast (2 : ℝ) b, ← zpow_natCast (2 : ℝ) 54, mul_assoc, mul_assoc, ← zpow_add₀ (by norm_num), ← zpow_add₀ (by norm_num)]
      congr 2
      push_cast; ring
    rw [hv, Real.sqrt_mul (by positivity), Real.sqrt_sq (by positivity), show h - 53 = (h - 54) + 1 by ring, zpow_add₀ (by norm_num), zpow_one]
    ring

end Verif.CRef.Fpr
