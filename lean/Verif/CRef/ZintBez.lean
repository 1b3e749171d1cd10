import Verif.CRef.ZintScaled
import Mathlib.Data.BitVec

/-! # C102: the steps of the extended GCD -/

namespace Verif.CRef.Kg

/-! ## 64-bit words as integers -/

theorem ti_range (x : BitVec 64) : -9223372036854775808 ≤ x.toInt ∧ x.toInt < 9223372036854775808 := by
  have h1 := BitVec.le_toInt x
  have h2 := BitVec.toInt_lt (x := x)
  norm_num at h1 h2
  exact ⟨h1, h2⟩

theorem bmod64 (v : ℤ) (h1 : -9223372036854775808 ≤ v) (h2 : v < 9223372036854775808) : v.bmod (2 ^ 64) = v := by
  rw [Int.bmod_def]; norm_num; omega

theorem ti_add (x y : BitVec 64) (h1 : -9223372036854775808 ≤ x.toInt + y.toInt) (h2 : x.toInt + y.toInt < 9223372036854775808) : (x + y).toInt = x.toInt + y.toInt := by
  rw [BitVec.toInt_add, bmod64 _ h1 h2]

theorem ti_sub (x y : BitVec 64) (h1 : -9223372036854775808 ≤ x.toInt - y.toInt) (h2 : x.toInt - y.toInt < 9223372036854775808) : (x - y).toInt = x.toInt - y.toInt := by
  rw [BitVec.toInt_sub, bmod64 _ h1 h2]

theorem ti_mul (x y : BitVec 64) (h1 : -9223372036854775808 ≤ x.toInt * y.toInt) (h2 : x.toInt * y.toInt < 9223372036854775808) : (x * y).toInt = x.toInt * y.toInt := by
  rw [BitVec.toInt_mul, bmod64 _ h1 h2]

theorem ti_w64 (w : ℕ) (h : w < 4294967296) : (w64 w).toInt = w := by
  unfold w64
  rw [BitVec.toInt_eq_toNat_cond, BitVec.toNat_ofNat, Nat.mod_eq_of_lt (by omega), if_pos (by omega)]

theorem ti_toNat (x : BitVec 64) (k : ℕ) (hk : k ≤ 64) : ((x.toNat % 2 ^ k : ℕ) : ℤ) = x.toInt % 2 ^ k := by
  have h : (x.toInt : ℤ) ≡ x.toNat [ZMOD 2 ^ k] := by
    rw [BitVec.toInt_eq_toNat_cond]
    split
    · rfl
    · rw [Int.modEq_iff_dvd]
      refine ⟨2 ^ (64 - k), ?_⟩
      push_cast
      rw [← pow_add, show k + (64 - k) = 64 by omega]; ring
  rw [h]; push_cast; rfl

theorem low31 (z : BitVec 64) : (((z.setWidth 32 &&& 0x7FFFFFFF#32).toNat : ℕ) : ℤ) = z.toInt % 2147483648 := by
  have e : (z.setWidth 32 &&& 0x7FFFFFFF#32).toNat = z.toNat % 2 ^ 31 := by
    rw [BitVec.toNat_and, BitVec.toNat_setWidth, show (0x7FFFFFFF#32).toNat = 0x7FFFFFFF by rfl, and31]
    omega
  rw [e, ti_toNat z 31 (by norm_num)]; norm_num

theorem low32 (z : BitVec 64) : (((z.setWidth 32).toNat : ℕ) : ℤ) = z.toInt % 4294967296 := by
  rw [BitVec.toNat_setWidth, ti_toNat z 32 (by norm_num)]; norm_num

theorem ti_shift (z : BitVec 64) : (z.sshiftRight 31).toInt = z.toInt / 2147483648 := by
  rw [BitVec.toInt_sshiftRight, Int.shiftRight_eq_div_pow]; norm_num

theorem signOf_eq (z : BitVec 64) : signOf z = if z.toInt < 0 then 1 else 0 := by
  unfold signOf
  rw [BitVec.toNat_ushiftRight, Nat.shiftRight_eq_div_pow]
  have := z.isLt
  rw [BitVec.toInt_eq_toNat_cond]
  split <;> split <;> omega

/-! ## The combination of two numbers -/

theorem abs_comb (x y : ℕ) (xa xb : ℤ) (K : ℤ) (M : ℤ) (hx : (x : ℤ) ≤ M) (hy : (y : ℤ) ≤ M) (hM : 0 ≤ M) (h : |xa| + |xb| ≤ K) : |(x : ℤ) * xa + y * xb| ≤ M * K := by
  refine (abs_add_le _ _).trans ?_
  rw [abs_mul, abs_mul, abs_of_nonneg (Int.natCast_nonneg x), abs_of_nonneg (Int.natCast_nonneg y)]
  have h1 := mul_le_mul_of_nonneg_right hx (abs_nonneg xa)
  have h2 := mul_le_mul_of_nonneg_right hy (abs_nonneg xb)
  have h3 := mul_le_mul_of_nonneg_left h hM
  linarith

theorem combineWord (xa xb f cc : BitVec 64) (hab : |xa.toInt| + |xb.toInt| ≤ 2147483648) (hf : 0 ≤ f.toInt ∧ f.toInt < 2147483648) (hc : -2147483648 ≤ cc.toInt ∧ cc.toInt < 4294967296)
    (a b m : ℕ) (ha : a < 2147483648) (hb : b < 2147483648) (hm : m < 2147483648) :
    (w64 a * xa + w64 b * xb + w64 m * f + cc).toInt = a * xa.toInt + b * xb.toInt + m * f.toInt + cc.toInt ∧
      -4611686018427387904 ≤ a * xa.toInt + b * xb.toInt + m * f.toInt + cc.toInt ∧ a * xa.toInt + b * xb.toInt + m * f.toInt + cc.toInt < 9223372036854775808 := by
  have h1 := abs_comb a b xa.toInt xb.toInt 2147483648 2147483647 (by omega) (by omega) (by norm_num) hab
  have h2 := abs_comb a 0 xa.toInt xb.toInt 2147483648 2147483647 (by omega) (by omega) (by norm_num) hab
  have h3 := abs_comb 0 b xa.toInt xb.toInt 2147483648 2147483647 (by omega) (by omega) (by norm_num) hab
  have h4 : (m : ℤ) * f.toInt ≤ 2147483647 * 2147483647 := mul_le_mul (by omega) (by omega) hf.1 (by norm_num)
  have h5 : 0 ≤ (m : ℤ) * f.toInt := mul_nonneg (by omega) hf.1
  rw [abs_le] at h1 h2 h3
  simp only [Nat.cast_zero, zero_mul, add_zero, zero_add] at h2 h3
  have e1 := ti_mul (w64 a) xa (by rw [ti_w64 a (by omega)]; omega) (by rw [ti_w64 a (by omega)]; omega)
  have e2 := ti_mul (w64 b) xb (by rw [ti_w64 b (by omega)]; omega) (by rw [ti_w64 b (by omega)]; omega)
  have e3 := ti_mul (w64 m) f (by rw [ti_w64 m (by omega)]; omega) (by rw [ti_w64 m (by omega)]; omega)
  rw [ti_w64 a (by omega)] at e1
  rw [ti_w64 b (by omega)] at e2
  rw [ti_w64 m (by omega)] at e3
  have e4 := ti_add (w64 a * xa) (w64 b * xb) (by rw [e1, e2]; omega) (by rw [e1, e2]; omega)
  have e5 := ti_add (w64 a * xa + w64 b * xb) (w64 m * f) (by rw [e4, e1, e2, e3]; omega) (by rw [e4, e1, e2, e3]; omega)
  have e6 := ti_add (w64 a * xa + w64 b * xb + w64 m * f) cc (by rw [e5, e4, e1, e2, e3]; omega) (by rw [e5, e4, e1, e2, e3]; omega)
  rw [e6, e5, e4, e1, e2, e3]
  exact ⟨rfl, by omega, by omega⟩

theorem combine_spec (xa xb f : BitVec 64) (hab : |xa.toInt| + |xb.toInt| ≤ 2147483648) (hf : 0 ≤ f.toInt ∧ f.toInt < 2147483648) (a b m : List ℕ) (n : ℕ) (la : a.length = n) (lb : b.length = n) (lm : m.length = n)
    (ha : Words a) (hb : Words b) (hm : Words m) (cc : BitVec 64) (hc : -2147483648 ≤ cc.toInt ∧ cc.toInt < 4294967296) :
    ∃ r c, combine xa xb f a b m cc = (r, c) ∧ r.length = n ∧ Words r ∧ (-2147483648 ≤ c.toInt ∧ c.toInt < 4294967296) ∧
      (big r : ℤ) + c.toInt * 2147483648 ^ n = big a * xa.toInt + big b * xb.toInt + big m * f.toInt + cc.toInt := by
  induction n generalizing a b m cc with
  | zero =>
    obtain rfl := List.length_eq_zero_iff.1 la
    obtain rfl := List.length_eq_zero_iff.1 lb
    obtain rfl := List.length_eq_zero_iff.1 lm
    exact ⟨[], cc, rfl, rfl, words_nil, hc, by simp [big]⟩
  | succ n ih =>
    obtain ⟨wa, a, rfl⟩ := List.exists_cons_of_length_eq_add_one la
    obtain ⟨wb, b, rfl⟩ := List.exists_cons_of_length_eq_add_one lb
    obtain ⟨wm, m, rfl⟩ := List.exists_cons_of_length_eq_add_one lm
    obtain ⟨z1, z2, z3⟩ := combineWord xa xb f cc hab hf hc wa wb wm ha.head hb.head hm.head
    obtain ⟨z, hz⟩ : ∃ z, w64 wa * xa + w64 wb * xb + w64 wm * f + cc = z := ⟨_, rfl⟩
    rw [hz] at z1
    have hs := ti_shift z
    obtain ⟨r, c, e, l, w, cb, s⟩ := ih a b m (by simpa using la) (by simpa using lb) (by simpa using lm) ha.tail hb.tail hm.tail (z.sshiftRight 31) (by rw [hs]; omega)
    refine ⟨(z.setWidth 32 &&& 0x7FFFFFFF#32).toNat :: r, c, ?_, by simp [l], words_cons ?_ w, cb, ?_⟩
    · rw [combine, hz, e]
    · have := low31 z; omega
    · rw [big_cons, big_cons, big_cons, big_cons, pow_succ]
      push_cast
      rw [low31 z]
      have h9 := Int.emod_add_mul_ediv z.toInt 2147483648
      rw [hs] at s
      linear_combination 2147483648 * s + h9 + z1

/-- The array after the loops stands for the exact quotient by `2^31`, modulo `2^(31 len)`. -/
theorem shifted_spec (r : List ℕ) (c : BitVec 64) (n : ℕ) (hl : r.length = n + 1) (hw : Words r) (V : ℤ) (h : (big r : ℤ) + c.toInt * 2147483648 ^ (n + 1) = 2147483648 * V) :
    ∃ l t, shifted (r, c) = l ++ [t] ∧ l.length = n ∧ Words l ∧ t < 4294967296 ∧ (big l : ℤ) + c.toInt * 2147483648 ^ n = V ∧ ((t : ℕ) : ℤ) = c.toInt % 4294967296 ∧
      (big (l ++ [t]) : ℤ) ≡ V [ZMOD 2147483648 ^ (n + 1)] ∧ (signOf c = if V < 0 then 1 else 0) := by
  obtain ⟨w, l, rfl⟩ := List.exists_cons_of_length_eq_add_one hl
  have hln : l.length = n := by simpa using hl
  have hB := big_lt l hw.tail
  rw [hln] at hB
  rw [big_cons, pow_succ] at h
  have hw0 := hw.head
  have hBc : ((2147483648 ^ n : ℕ) : ℤ) = (2147483648 : ℤ) ^ n := by push_cast; rfl
  have hBp : (0 : ℤ) < 2147483648 ^ n := by positivity
  obtain ⟨P, hP⟩ : ∃ P : ℤ, c.toInt * 2147483648 ^ n = P := ⟨_, rfl⟩
  rw [← mul_assoc, hP] at h
  push_cast at h
  have hV : (big l : ℤ) + P = V := by omega
  have ht := low32 c
  refine ⟨l, (c.setWidth 32).toNat, rfl, hln, hw.tail, (c.setWidth 32).isLt, by rw [hP]; exact hV, ht, ?_, ?_⟩
  · rw [big_append, hln]
    have : big [(c.setWidth 32).toNat] = (c.setWidth 32).toNat := by simp [big]
    rw [this]
    push_cast
    rw [ht, ← hV, ← hP, Int.modEq_iff_dvd, pow_succ]
    have h9 := Int.emod_add_mul_ediv c.toInt 4294967296
    refine ⟨2 * (c.toInt / 4294967296), ?_⟩
    linear_combination -(2147483648 ^ n) * h9
  · rw [signOf_eq]
    by_cases hc : c.toInt < 0
    · have : c.toInt * 2147483648 ^ n ≤ (-1) * 2147483648 ^ n := mul_le_mul_of_nonneg_right (by omega) hBp.le
      rw [if_pos hc, if_pos (by omega)]
    · have : 0 * 2147483648 ^ n ≤ c.toInt * 2147483648 ^ n := mul_le_mul_of_nonneg_right (by omega) hBp.le
      rw [if_neg hc, if_neg (by omega)]

/-! ## zint_negate -/

theorem xor31 (w : ℕ) (hw : w < 2147483648) : w ^^^ 0x7FFFFFFF = 2147483647 - w := by
  have h := congrArg BitVec.toNat (BitVec.xor_allOnes (x := BitVec.ofNat 31 w))
  rw [BitVec.toNat_xor, BitVec.toNat_not, BitVec.toNat_ofNat, BitVec.toNat_allOnes, Nat.mod_eq_of_lt (by omega)] at h
  norm_num at h
  exact h

theorem xor31_mod (t : ℕ) : (t ^^^ 0x7FFFFFFF) % 2147483648 = 2147483647 - t % 2147483648 := by
  have := Nat.xor_mod_two_pow (a := t) (b := 0x7FFFFFFF) (n := 31)
  norm_num at this
  rw [this]; exact xor31 _ (Nat.mod_lt _ (by norm_num))

theorem negateLoop_mod (l : List ℕ) (t : ℕ) (hl : Words l) (cc : ℕ) (hc : cc ≤ 1) :
    (zintNegateLoop 0x7FFFFFFF (l ++ [t]) cc).length = l.length + 1 ∧ Words (zintNegateLoop 0x7FFFFFFF (l ++ [t]) cc) ∧
      (big (zintNegateLoop 0x7FFFFFFF (l ++ [t]) cc) : ℤ) ≡ -1 - big (l ++ [t]) + cc [ZMOD 2147483648 ^ (l.length + 1)] := by
  induction l generalizing cc with
  | nil =>
    rw [List.nil_append, zintNegateLoop, zintNegateLoop, and31]
    refine ⟨rfl, words_cons (Nat.mod_lt _ (by norm_num)) words_nil, ?_⟩
    simp only [big, mul_zero, add_zero, List.length_nil, zero_add, pow_one]
    have h := xor31_mod t
    have h2 : add32 (t ^^^ 0x7FFFFFFF) cc % 2147483648 = (2147483647 - t % 2147483648 + cc) % 2147483648 := by
      rw [← h]; unfold add32; omega
    rw [h2]
    unfold Int.ModEq
    omega
  | cons w l ih =>
    have hw := hl.head
    rw [List.cons_append, zintNegateLoop, and31, shr31, xor31 w hw]
    have hhi : add32 (2147483647 - w) cc / 2147483648 ≤ 1 := by unfold add32; omega
    have hlo : ((add32 (2147483647 - w) cc % 2147483648 : ℕ) : ℤ) + 2147483648 * (add32 (2147483647 - w) cc / 2147483648 : ℕ) = 2147483647 - w + cc := by unfold add32; omega
    generalize add32 (2147483647 - w) cc / 2147483648 = hi at *
    obtain ⟨lo, hlo'⟩ : ∃ lo, add32 (2147483647 - w) cc % 2147483648 = lo := ⟨_, rfl⟩
    have hlt : lo < 2147483648 := by omega
    rw [hlo'] at hlo ⊢
    obtain ⟨i1, i2, i3⟩ := ih hl.tail hi hhi
    refine ⟨by simp [i1], words_cons hlt i2, ?_⟩
    rw [big_cons, big_cons, List.length_cons]
    have i4 := (Int.ModEq.mul_left' (c := 2147483648) i3).add_left (lo : ℤ)
    rw [← pow_succ'] at i4
    push_cast
    refine i4.trans (modEq_of_eq ?_)
    linear_combination hlo

theorem negateLoop_zero (l : List ℕ) (hl : Words l) : zintNegateLoop 0 l 0 = l := by
  induction l with
  | nil => rfl
  | cons w l ih =>
    have hw := hl.head
    rw [zintNegateLoop, Nat.xor_zero, and31, shr31]
    have e1 : add32 w 0 % 2147483648 = w := by unfold add32; omega
    have e2 : add32 w 0 / 2147483648 = 0 := by unfold add32; omega
    rw [e1, e2, ih hl.tail]

theorem eq_of_modEq {a b N : ℤ} (h : a ≡ b [ZMOD N]) (h1 : 0 ≤ a) (h2 : a < N) (h3 : 0 ≤ b) (h4 : b < N) : a = b := by
  have := h.eq
  rwa [Int.emod_eq_of_lt h1 h2, Int.emod_eq_of_lt h3 h4] at this

/-- The array of a number `V` of absolute value below `2^(31 len)`, negated if `V` is negative. -/
theorem negate_spec (l : List ℕ) (t : ℕ) (c V : ℤ) (hl : Words l) (ht : t < 4294967296) (htc : (t : ℤ) = c % 4294967296) (hV : (big l : ℤ) + c * 2147483648 ^ l.length = V)
    (hm : (big (l ++ [t]) : ℤ) ≡ V [ZMOD 2147483648 ^ (l.length + 1)]) (hb : |V| < 2147483648 ^ (l.length + 1)) :
    ∃ a, zintNegate (l ++ [t]) (if V < 0 then 1 else 0) = a ∧ a.length = l.length + 1 ∧ Words a ∧ (big a : ℤ) = |V| := by
  refine ⟨_, rfl, ?_⟩
  have hB := big_lt l hl
  have hBc : ((2147483648 ^ l.length : ℕ) : ℤ) = (2147483648 : ℤ) ^ l.length := by push_cast; rfl
  unfold zintNegate
  by_cases h : V < 0
  · rw [if_pos h, show neg32 1 >>> 1 = 0x7FFFFFFF by decide]
    obtain ⟨i1, i2, i3⟩ := negateLoop_mod l t hl 1 (by norm_num)
    refine ⟨i1, i2, ?_⟩
    have h1 := big_lt _ i2
    rw [i1] at h1
    have h1' : (big (zintNegateLoop 0x7FFFFFFF (l ++ [t]) 1) : ℤ) < 2147483648 ^ (l.length + 1) := by exact_mod_cast h1
    rw [abs_of_neg h] at hb ⊢
    refine eq_of_modEq (i3.trans ?_) (by omega) h1' (by omega) hb
    have := (hm.neg).add_left (-1 + 1)
    refine (modEq_of_eq ?_).trans (this.trans (modEq_of_eq ?_)) <;> push_cast <;> ring
  · rw [if_neg h, show neg32 0 >>> 1 = 0 by decide]
    push Not at h
    rw [abs_of_nonneg h] at hb ⊢
    -- the top word is the carry
    have hc0 : 0 ≤ c := by
      by_contra hc
      have : c * 2147483648 ^ l.length ≤ (-1) * 2147483648 ^ l.length := mul_le_mul_of_nonneg_right (by omega) (by positivity)
      omega
    have hc1 : c < 2147483648 := by
      by_contra hc
      have : 2147483648 * 2147483648 ^ l.length ≤ c * 2147483648 ^ l.length := mul_le_mul_of_nonneg_right (by omega) (by positivity)
      rw [pow_succ'] at hb
      omega
    have htl : t < 2147483648 := by omega
    have hW : Words (l ++ [t]) := words_append hl (words_cons htl words_nil)
    rw [negateLoop_zero _ hW]
    refine ⟨by simp, hW, ?_⟩
    have h1 := big_lt _ hW
    have hlen : (l ++ [t]).length = l.length + 1 := by simp
    rw [hlen] at h1
    exact eq_of_modEq hm (by omega) (by exact_mod_cast h1) h hb

/-- One half of `zint_co_reduce`: the exact quotient, its absolute value and its sign. -/
theorem coReduce_half (n : ℕ) (a b : List ℕ) (la : a.length = n + 1) (lb : b.length = n + 1) (ha : Words a) (hb : Words b) (xa xb : BitVec 64) (hab : |xa.toInt| + |xb.toInt| ≤ 2147483648)
    (V : ℤ) (hV : (big a : ℤ) * xa.toInt + big b * xb.toInt = 2147483648 * V) :
    ∃ a', zintNegate (shifted (combine xa xb 0 a b (List.replicate a.length 0) 0)) (signOf (combine xa xb 0 a b (List.replicate a.length 0) 0).2) = a' ∧
      (signOf (combine xa xb 0 a b (List.replicate a.length 0) 0).2 = if V < 0 then 1 else 0) ∧ a'.length = n + 1 ∧ Words a' ∧ (big a' : ℤ) = |V| := by
  obtain ⟨r, c, e, l, w, cb, s⟩ := combine_spec xa xb 0 hab (by decide) a b (List.replicate a.length 0) (n + 1) la lb (by simp [la]) ha hb (words_replicate _) 0 (by decide)
  rw [e]
  have s' : (big r : ℤ) + c.toInt * 2147483648 ^ (n + 1) = 2147483648 * V := by
    rw [s, ← hV]; simp
  obtain ⟨l', t, e1, e2, e3, e4, e5, e6, e7, e8⟩ := shifted_spec r c n l w V s'
  have hA := big_lt a ha
  have hBb := big_lt b hb
  rw [la] at hA
  rw [lb] at hBb
  have hA' : (big a : ℤ) < 2147483648 ^ (n + 1) := by exact_mod_cast hA
  have hB' : (big b : ℤ) < 2147483648 ^ (n + 1) := by exact_mod_cast hBb
  have hbd := abs_comb (big a) (big b) xa.toInt xb.toInt 2147483648 (2147483648 ^ (n + 1) - 1) (by omega) (by omega) (by omega) hab
  rw [hV, abs_mul] at hbd
  have hVb : |V| < 2147483648 ^ (n + 1) := by
    rw [show |(2147483648 : ℤ)| = 2147483648 by norm_num] at hbd
    omega
  dsimp only
  rw [e8, e1]
  rw [← e2] at e5 e7 hVb ⊢
  obtain ⟨a', n1, n2, n3, n4⟩ := negate_spec l' t c.toInt V e3 e4 e6 e5 e7 hVb
  exact ⟨a', n1, rfl, n2, n3, n4⟩

theorem coReduce_spec (n : ℕ) (a b : List ℕ) (la : a.length = n + 1) (lb : b.length = n + 1) (ha : Words a) (hb : Words b) (xa xb ya yb : BitVec 64)
    (hab : |xa.toInt| + |xb.toInt| ≤ 2147483648) (hab2 : |ya.toInt| + |yb.toInt| ≤ 2147483648)
    (V U : ℤ) (hV : (big a : ℤ) * xa.toInt + big b * xb.toInt = 2147483648 * V) (hU : (big a : ℤ) * ya.toInt + big b * yb.toInt = 2147483648 * U) :
    ∃ a' b' r, zintCoReduce a b xa xb ya yb = (a', b', r) ∧ a'.length = n + 1 ∧ b'.length = n + 1 ∧ Words a' ∧ Words b' ∧ (big a' : ℤ) = |V| ∧ (big b' : ℤ) = |U| ∧
      (r &&& 1 = if V < 0 then 1 else 0) ∧ (r >>> 1 = if U < 0 then 1 else 0) := by
  obtain ⟨a', e1, s1, l1, w1, v1⟩ := coReduce_half n a b la lb ha hb xa xb hab V hV
  obtain ⟨b', e2, s2, l2, w2, v2⟩ := coReduce_half n a b la lb ha hb ya yb hab2 U hU
  unfold zintCoReduce
  dsimp only
  rw [e1, e2, s1, s2]
  refine ⟨a', b', _, rfl, l1, l2, w1, w2, v1, v2, ?_, ?_⟩
  · split <;> split <;> rfl
  · split <;> split <;> rfl

/-! ## zint_finish_mod -/

theorem finishCmp_spec (l m : List ℕ) (t tm : ℕ) (hl : l.length = m.length) (hw : Words l) (hm : Words m) (ht : t < 4294967296) (htm : tm < 2147483648) (cc : ℕ) (hc : cc ≤ 1)
    (hlt : big (l ++ [t]) < big (m ++ [tm]) + cc + 2147483648 ^ (l.length + 1)) : finishCmp (l ++ [t]) (m ++ [tm]) cc = if big (l ++ [t]) < big (m ++ [tm]) + cc then 1 else 0 := by
  induction l generalizing m cc with
  | nil =>
    obtain rfl := List.length_eq_zero_iff.1 hl.symm
    simp only [List.nil_append, big, mul_zero, add_zero, List.length_nil, zero_add, pow_one] at hlt ⊢
    rw [finishCmp, finishCmp, shr31]
    · unfold sub32
      split <;> omega
    · simp
  | cons w l ih =>
    obtain ⟨v, m, rfl⟩ : ∃ v m', m = v :: m' := by
      cases m with
      | nil => simp at hl
      | cons v m => exact ⟨v, m, rfl⟩
    obtain ⟨lo, hi, e1, e2, h1, h2, h3⟩ := subWord w v cc hw.head hm.head hc
    have hl' : l.length = m.length := by simpa using hl
    rw [List.cons_append, List.cons_append, List.length_cons, big_cons, big_cons, pow_succ] at hlt
    rw [List.cons_append, List.cons_append, finishCmp, e2, ih m hl' hw.tail hm.tail hi h2 (by generalize 2147483648 ^ (l.length + 1) = B at *; omega), big_cons, big_cons]
    have hwv := hw.head
    have hvv := hm.head
    congr 1
    rw [eq_iff_iff]
    constructor <;> intro h <;> omega

theorem finishLoop_mod (xm ym : ℕ) (l m : List ℕ) (t tm : ℕ) (hl : l.length = m.length) (hw : Words l) (hm : ∀ w ∈ m ++ [tm], (w ^^^ xm) &&& ym < 2147483648) (ht : t < 4294967296) (cc : ℕ) (hc : cc ≤ 1) :
    (finishLoop xm ym (l ++ [t]) (m ++ [tm]) cc).length = l.length + 1 ∧ Words (finishLoop xm ym (l ++ [t]) (m ++ [tm]) cc) ∧
      (big (finishLoop xm ym (l ++ [t]) (m ++ [tm]) cc) : ℤ) ≡ big (l ++ [t]) - big ((m ++ [tm]).map fun w => (w ^^^ xm) &&& ym) - cc [ZMOD 2147483648 ^ (l.length + 1)] := by
  induction l generalizing m cc with
  | nil =>
    obtain rfl := List.length_eq_zero_iff.1 hl.symm
    have h := hm tm (by simp)
    rw [List.nil_append, List.nil_append, finishLoop, finishLoop, and31]
    · refine ⟨rfl, words_cons (Nat.mod_lt _ (by norm_num)) words_nil, ?_⟩
      simp only [big, mul_zero, add_zero, List.length_nil, zero_add, pow_one, List.map_cons, List.map_nil]
      generalize (tm ^^^ xm) &&& ym = q at *
      unfold Int.ModEq sub32
      omega
    · simp
  | cons w l ih =>
    obtain ⟨v, m, rfl⟩ : ∃ v m', m = v :: m' := by
      cases m with
      | nil => simp at hl
      | cons v m => exact ⟨v, m, rfl⟩
    have hv := hm v (by simp)
    obtain ⟨lo, hi, e1, e2, h1, h2, h3⟩ := subWord w ((v ^^^ xm) &&& ym) cc hw.head hv hc
    obtain ⟨i1, i2, i3⟩ := ih m (by simpa using hl) hw.tail (fun x hx => hm x (by rw [List.cons_append]; exact List.mem_cons_of_mem _ hx)) hi h2
    rw [List.cons_append, List.cons_append, finishLoop, e1, e2]
    refine ⟨by simp [i1], words_cons h1 i2, ?_⟩
    rw [big_cons, big_cons, List.map_cons, big_cons, List.length_cons]
    have i4 := (Int.ModEq.mul_left' (c := 2147483648) i3).add_left (lo : ℤ)
    rw [← pow_succ'] at i4
    push_cast
    refine i4.trans (modEq_of_eq ?_)
    have h4 : (lo : ℤ) + ((v ^^^ xm) &&& ym : ℕ) + cc = w + 2147483648 * hi := by exact_mod_cast h3
    linear_combination h4

theorem map_mask0 (m : List ℕ) : big (m.map fun w => (w ^^^ 0) &&& neg32 0) = 0 := by
  induction m with
  | nil => rfl
  | cons w m ih => rw [List.map_cons, big_cons, ih, mask0]

theorem map_mask1 (m : List ℕ) (hm : Words m) : big (m.map fun w => (w ^^^ 0) &&& neg32 1) = big m := by
  induction m with
  | nil => rfl
  | cons w m ih => rw [List.map_cons, big_cons, ih hm.tail, Nat.xor_zero, mask1 _ (by have := hm.head; omega), big_cons]

theorem map_mask2 (m : List ℕ) (hm : Words m) : big (m.map fun w => (w ^^^ 0x7FFFFFFF) &&& neg32 1) + big m + 1 = 2147483648 ^ m.length := by
  induction m with
  | nil => rfl
  | cons w m ih =>
    have hw := hm.head
    have := ih hm.tail
    rw [List.map_cons, big_cons, xor31 w hw, mask1 _ (by omega), big_cons, List.length_cons, pow_succ, ← this]
    omega

/-- `zint_finish_mod` reduces a number in `[-M, 2M)` modulo `M`. -/
theorem finishMod_spec (l m : List ℕ) (t tm : ℕ) (c V : ℤ) (hl : l.length = m.length) (hw : Words l) (hm : Words (m ++ [tm])) (ht : t < 4294967296) (htc : (t : ℤ) = c % 4294967296)
    (hc4 : c < 4294967296) (hV : (big l : ℤ) + c * 2147483648 ^ l.length = V) (hmod : (big (l ++ [t]) : ℤ) ≡ V [ZMOD 2147483648 ^ (l.length + 1)])
    (h1 : -(big (m ++ [tm]) : ℤ) ≤ V) (h2 : V < 2 * big (m ++ [tm])) :
    ∃ a, zintFinishMod (l ++ [t]) (m ++ [tm]) (if V < 0 then 1 else 0) = a ∧ a.length = l.length + 1 ∧ Words a ∧ big a < big (m ++ [tm]) ∧ (big a : ℤ) ≡ V [ZMOD big (m ++ [tm])] := by
  refine ⟨_, rfl, ?_⟩
  have hM := big_lt _ hm
  have hlm : (m ++ [tm]).length = l.length + 1 := by rw [List.length_append, hl]; rfl
  rw [hlm] at hM
  have hM' : (big (m ++ [tm]) : ℤ) < 2147483648 ^ (l.length + 1) := by exact_mod_cast hM
  have htm : tm < 2147483648 := hm tm (by simp)
  have hwm : Words m := fun x hx => hm x (by simp [hx])
  unfold zintFinishMod
  dsimp only
  by_cases h : V < 0
  · rw [if_pos h]
    have e1 : neg32 (1 ||| sub32 1 (finishCmp (l ++ [t]) (m ++ [tm]) 0)) = neg32 1 := by
      have hb : ∀ (a b : List ℕ) (cc : ℕ), cc ≤ 1 → finishCmp a b cc ≤ 1 := by
        intro a
        induction a with
        | nil => intro b cc h; unfold finishCmp; exact h
        | cons x a ih =>
          intro b cc h
          cases b with
          | nil => unfold finishCmp; exact h
          | cons y b => unfold finishCmp; exact ih _ _ (by rw [shr31]; unfold sub32; omega)
      have := hb (l ++ [t]) (m ++ [tm]) 0 (by norm_num)
      generalize finishCmp (l ++ [t]) (m ++ [tm]) 0 = q at *
      rcases (show q = 0 ∨ q = 1 by omega) with rfl | rfl <;> rfl
    rw [e1, show neg32 1 >>> 1 = 0x7FFFFFFF by decide]
    obtain ⟨i1, i2, i3⟩ := finishLoop_mod 0x7FFFFFFF (neg32 1) l m t tm hl hw (fun w hw' => by
      have := hm w hw'
      rw [xor31 w this, mask1 _ (by omega)]; omega) ht 1 (by norm_num)
    have hk := map_mask2 (m ++ [tm]) hm
    rw [hlm] at hk
    have hk' : (big ((m ++ [tm]).map fun w => (w ^^^ 0x7FFFFFFF) &&& neg32 1) : ℤ) + big (m ++ [tm]) + 1 = 2147483648 ^ (l.length + 1) := by exact_mod_cast hk
    have hlt := big_lt _ i2
    rw [i1] at hlt
    have hlt' : (big (finishLoop 0x7FFFFFFF (neg32 1) (l ++ [t]) (m ++ [tm]) 1) : ℤ) < 2147483648 ^ (l.length + 1) := by exact_mod_cast hlt
    have e : (big (finishLoop 0x7FFFFFFF (neg32 1) (l ++ [t]) (m ++ [tm]) 1) : ℤ) = V + big (m ++ [tm]) := by
      refine eq_of_modEq (i3.trans ?_) (by omega) hlt' (by omega) (by omega)
      generalize (big ((m ++ [tm]).map fun w => (w ^^^ 0x7FFFFFFF) &&& neg32 1) : ℤ) = K at *
      have e5 := hmod.add_right (big (m ++ [tm]) - 2147483648 ^ (l.length + 1) : ℤ)
      refine (modEq_of_eq ?_).trans (e5.trans ?_)
      · push_cast; linear_combination -hk'
      · rw [Int.modEq_iff_dvd]; exact ⟨1, by ring⟩
    refine ⟨i1, i2, by omega, ?_⟩
    rw [e, Int.modEq_iff_dvd]; exact ⟨-1, by ring⟩
  · rw [if_neg h]
    push Not at h
    have hB := big_lt l hw
    have hBc : ((2147483648 ^ l.length : ℕ) : ℤ) = (2147483648 : ℤ) ^ l.length := by push_cast; rfl
    have hc0 : 0 ≤ c := by
      by_contra hc
      have : c * 2147483648 ^ l.length ≤ (-1) * 2147483648 ^ l.length := mul_le_mul_of_nonneg_right (by omega) (by positivity)
      omega
    have htv : (t : ℤ) = c := by rw [htc, Int.emod_eq_of_lt hc0 hc4]
    have hbV : (big (l ++ [t]) : ℤ) = V := by
      rw [big_append, ← hV, ← htv]; simp [big]; ring
    have hcmp := finishCmp_spec l m t tm hl hw hwm ht htm 0 (by norm_num) (by omega)
    rw [add_zero] at hcmp
    rw [hcmp, show neg32 0 >>> 1 = 0 by decide]
    by_cases d : big (l ++ [t]) < big (m ++ [tm])
    · rw [if_pos d, show neg32 (0 ||| sub32 1 1) = neg32 0 by decide]
      obtain ⟨i1, i2, i3⟩ := finishLoop_mod 0 (neg32 0) l m t tm hl hw (fun w hw' => by rw [mask0]; norm_num) ht 0 (by norm_num)
      rw [map_mask0] at i3
      have hlt := big_lt _ i2
      rw [i1] at hlt
      have e : (big (finishLoop 0 (neg32 0) (l ++ [t]) (m ++ [tm]) 0) : ℤ) = V := by
        refine eq_of_modEq (i3.trans (modEq_of_eq (by rw [hbV]; push_cast; ring))) (by omega) (by exact_mod_cast hlt) h (by omega)
      exact ⟨i1, i2, by omega, by rw [e]⟩
    · rw [if_neg d, show neg32 (0 ||| sub32 1 0) = neg32 1 by decide]
      obtain ⟨i1, i2, i3⟩ := finishLoop_mod 0 (neg32 1) l m t tm hl hw (fun w hw' => by
        have := hm w hw'
        rw [Nat.xor_zero, mask1 _ (by omega)]; exact this) ht 0 (by norm_num)
      rw [map_mask1 _ hm] at i3
      have hlt := big_lt _ i2
      rw [i1] at hlt
      have e : (big (finishLoop 0 (neg32 1) (l ++ [t]) (m ++ [tm]) 0) : ℤ) = V - big (m ++ [tm]) := by
        refine eq_of_modEq (i3.trans (modEq_of_eq (by rw [hbV]; push_cast; ring))) (by omega) (by exact_mod_cast hlt) (by omega) (by omega)
      refine ⟨i1, i2, by omega, ?_⟩
      rw [e, Int.modEq_iff_dvd]; exact ⟨1, by ring⟩

/-! ## zint_co_reduce_mod -/

theorem tn_mul (x y : BitVec 32) : ((x * y).toNat : ℤ) ≡ x.toNat * y.toNat [ZMOD 4294967296] := by
  rw [BitVec.toNat_mul]; push_cast; exact Int.mod_modEq _ _

theorem tn_add (x y : BitVec 32) : ((x + y).toNat : ℤ) ≡ x.toNat + y.toNat [ZMOD 4294967296] := by
  rw [BitVec.toNat_add]; push_cast; exact Int.mod_modEq _ _

theorem tn_sub (x y : BitVec 32) : ((x - y).toNat : ℤ) ≡ x.toNat - y.toNat [ZMOD 4294967296] := by
  rw [BitVec.toNat_sub]
  have := y.isLt
  rw [Int.modEq_iff_dvd]
  omega

theorem tn_ofNat (n : ℕ) : ((BitVec.ofNat 32 n).toNat : ℤ) ≡ n [ZMOD 4294967296] := by
  rw [BitVec.toNat_ofNat]; push_cast; exact Int.mod_modEq _ _

theorem tn_low (x : BitVec 64) : ((x.setWidth 32).toNat : ℤ) ≡ x.toInt [ZMOD 4294967296] := by
  rw [low32]; exact Int.mod_modEq _ _

theorem montFactor_spec (a0 b0 m0 m0i : ℕ) (h : (m0 * m0i + 1) % 2147483648 = 0) (xa xb : BitVec 64) :
    (0 ≤ (montFactor a0 b0 m0i xa xb).toInt ∧ (montFactor a0 b0 m0i xa xb).toInt < 2147483648) ∧
      (2147483648 : ℤ) ∣ a0 * xa.toInt + b0 * xb.toInt + m0 * (montFactor a0 b0 m0i xa xb).toInt := by
  obtain ⟨F, hF⟩ : ∃ F, (BitVec.ofNat 32 a0 * xa.setWidth 32 + BitVec.ofNat 32 b0 * xb.setWidth 32) * BitVec.ofNat 32 m0i = F := ⟨_, rfl⟩
  have hn : (montFactor a0 b0 m0i xa xb).toNat = F.toNat % 2147483648 := by
    unfold montFactor
    rw [hF, BitVec.toNat_setWidth, BitVec.toNat_and, show (0x7FFFFFFF#32).toNat = 0x7FFFFFFF by rfl, and31]
    omega
  have hi : (montFactor a0 b0 m0i xa xb).toInt = (F.toNat % 2147483648 : ℕ) := by
    rw [BitVec.toInt_eq_toNat_cond, hn, if_pos (by omega)]
  rw [hi]
  refine ⟨by omega, ?_⟩
  have hFm : (F.toNat : ℤ) ≡ (a0 * xa.toInt + b0 * xb.toInt) * m0i [ZMOD 4294967296] := by
    rw [← hF]
    exact (tn_mul _ _).trans (Int.ModEq.mul ((tn_add _ _).trans (Int.ModEq.add ((tn_mul _ _).trans (Int.ModEq.mul (tn_ofNat _) (tn_low _)))
      ((tn_mul _ _).trans (Int.ModEq.mul (tn_ofNat _) (tn_low _))))) (tn_ofNat _))
  have hF2 : ((F.toNat % 2147483648 : ℕ) : ℤ) ≡ (a0 * xa.toInt + b0 * xb.toInt) * m0i [ZMOD 2147483648] := by
    refine Int.ModEq.trans ?_ (hFm.of_dvd (by norm_num))
    push_cast
    exact Int.mod_modEq _ _
  rw [← Int.modEq_zero_iff_dvd]
  have h3 := (hF2.mul_left (m0 : ℤ)).add_left (a0 * xa.toInt + b0 * xb.toInt)
  refine h3.trans ?_
  rw [Int.modEq_zero_iff_dvd]
  have hd : (2147483648 : ℤ) ∣ m0 * m0i + 1 := by exact_mod_cast Nat.dvd_of_mod_eq_zero h
  have := Dvd.dvd.mul_left hd (a0 * xa.toInt + b0 * xb.toInt)
  refine this.trans (dvd_of_eq ?_)
  ring

theorem head_big (a : List ℕ) (n : ℕ) (h : a.length = n + 1) : (2147483648 : ℤ) ∣ (big a : ℤ) - (a[0]! : ℕ) := by
  obtain ⟨w, l, rfl⟩ := List.exists_cons_of_length_eq_add_one h
  rw [big_cons]
  exact ⟨big l, by push_cast; simp⟩

/-- One half of `zint_co_reduce_mod`. -/
theorem coReduceMod_half (n : ℕ) (a b m : List ℕ) (la : a.length = n + 1) (lb : b.length = n + 1) (lm : m.length = n + 1) (ha : Words a) (hb : Words b) (hm : Words m)
    (m0i : ℕ) (h0 : (m[0]! * m0i + 1) % 2147483648 = 0) (hA : big a ≤ big m) (hB : big b ≤ big m) (hM : 0 < big m) (xa xb : BitVec 64) (hab : |xa.toInt| + |xb.toInt| ≤ 2147483648) :
    ∃ a', zintFinishMod (shifted (combine xa xb (montFactor a[0]! b[0]! m0i xa xb) a b m 0)) m (signOf (combine xa xb (montFactor a[0]! b[0]! m0i xa xb) a b m 0).2) = a' ∧
      a'.length = n + 1 ∧ Words a' ∧ big a' < big m ∧ (2147483648 : ℤ) * big a' ≡ big a * xa.toInt + big b * xb.toInt [ZMOD big m] := by
  obtain ⟨f1, f2⟩ := montFactor_spec a[0]! b[0]! m[0]! m0i h0 xa xb
  generalize montFactor a[0]! b[0]! m0i xa xb = f at *
  obtain ⟨r, c, e, l, w, cb, s⟩ := combine_spec xa xb f hab f1 a b m (n + 1) la lb lm ha hb hm 0 (by decide)
  rw [e]
  have hd : (2147483648 : ℤ) ∣ big a * xa.toInt + big b * xb.toInt + big m * f.toInt := by
    have h1 := Dvd.dvd.mul_right (head_big a n la) xa.toInt
    have h2 := Dvd.dvd.mul_right (head_big b n lb) xb.toInt
    have h3 := Dvd.dvd.mul_right (head_big m n lm) f.toInt
    have := dvd_add (dvd_add (dvd_add h1 h2) h3) f2
    refine this.trans (dvd_of_eq ?_)
    ring
  obtain ⟨V, hV⟩ := hd
  have s' : (big r : ℤ) + c.toInt * 2147483648 ^ (n + 1) = 2147483648 * V := by
    rw [s, ← hV]; simp
  obtain ⟨l', t, e1, e2, e3, e4, e5, e6, e7, e8⟩ := shifted_spec r c n l w V s'
  obtain ⟨m', tm, rfl⟩ : ∃ m' tm, m = m' ++ [tm] := by
    rcases List.eq_nil_or_concat m with rfl | ⟨l, w, rfl⟩
    · simp at lm
    · exact ⟨l, w, List.concat_eq_append⟩
  have lm' : m'.length = n := by simpa using lm
  have hbd := abs_comb (big a) (big b) xa.toInt xb.toInt 2147483648 (big (m' ++ [tm])) (by exact_mod_cast hA) (by exact_mod_cast hB) (by omega) hab
  rw [abs_le] at hbd
  have hf0 : 0 ≤ (big (m' ++ [tm]) : ℤ) * f.toInt := mul_nonneg (by omega) f1.1
  have hf1 : (big (m' ++ [tm]) : ℤ) * f.toInt ≤ big (m' ++ [tm]) * 2147483647 := mul_le_mul_of_nonneg_left (by omega) (by omega)
  dsimp only
  rw [e8, e1]
  obtain ⟨a', n1, n2, n3, n4, n5⟩ := finishMod_spec l' m' t tm c.toInt V (by omega) e3 hm e4 e6 cb.2 (by rw [e2]; exact e5) (by rw [e2]; exact e7) (by omega) (by omega)
  refine ⟨a', n1, by omega, n3, n4, ?_⟩
  refine (n5.mul_left 2147483648).trans ?_
  rw [← hV, Int.modEq_iff_dvd]
  exact ⟨-f.toInt, by ring⟩

theorem coReduceMod_spec (n : ℕ) (a b m : List ℕ) (la : a.length = n + 1) (lb : b.length = n + 1) (lm : m.length = n + 1) (ha : Words a) (hb : Words b) (hm : Words m)
    (m0i : ℕ) (h0 : (m[0]! * m0i + 1) % 2147483648 = 0) (hA : big a ≤ big m) (hB : big b ≤ big m) (hM : 0 < big m) (xa xb ya yb : BitVec 64)
    (hab : |xa.toInt| + |xb.toInt| ≤ 2147483648) (hab2 : |ya.toInt| + |yb.toInt| ≤ 2147483648) :
    ∃ a' b', zintCoReduceMod a b m m0i xa xb ya yb = (a', b') ∧ a'.length = n + 1 ∧ b'.length = n + 1 ∧ Words a' ∧ Words b' ∧ big a' < big m ∧ big b' < big m ∧
      (2147483648 : ℤ) * big a' ≡ big a * xa.toInt + big b * xb.toInt [ZMOD big m] ∧ (2147483648 : ℤ) * big b' ≡ big a * ya.toInt + big b * yb.toInt [ZMOD big m] := by
  obtain ⟨a', e1, l1, w1, v1, c1⟩ := coReduceMod_half n a b m la lb lm ha hb hm m0i h0 hA hB hM xa xb hab
  obtain ⟨b', e2, l2, w2, v2, c2⟩ := coReduceMod_half n a b m la lb lm ha hb hm m0i h0 hA hB hM ya yb hab2
  unfold zintCoReduceMod
  dsimp only
  rw [e1, e2]
  exact ⟨a', b', rfl, l1, l2, w1, w2, v1, v2, c1, c2⟩

end Verif.CRef.Kg
