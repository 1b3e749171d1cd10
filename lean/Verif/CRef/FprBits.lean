import Verif.CRef.FprRound

/-! # Bit-level lemmas: masks, conditional shifts, fields -/

namespace Verif.CRef.Fpr

theorem and_neg_one (m : W) : m &&& -(1#64) = m := by
  rw [show -(1#64) = BitVec.allOnes 64 by decide]; exact BitVec.and_allOnes

theorem and_neg_zero (m : W) : m &&& -(0#64) = 0 := by simp

theorem and_sub_one_zero (m : W) : m &&& (0#64 - 1#64) = m := by
  rw [show (0#64 - 1#64) = BitVec.allOnes 64 by decide]; exact BitVec.and_allOnes

theorem and_sub_one_one (m : W) : m &&& (1#64 - 1#64) = 0 := by simp

/-- `x ^= (x ^ y) & -b` for a bit `b`. -/
theorem condxor (x y : W) (b : Bool) : x ^^^ ((x ^^^ y) &&& -(BitVec.ofNat 64 b.toNat)) = if b then y else x := by
  cases b
  · simp
  · show x ^^^ ((x ^^^ y) &&& -(1#64)) = y
    rw [and_neg_one, ← BitVec.xor_assoc]; simp

/-- `x ^= (x ^ y) & (b - 1)` for a bit `b`. -/
theorem condxor' (x y : W) (b : Bool) : x ^^^ ((x ^^^ y) &&& ((BitVec.ofNat 64 b.toNat) - 1#64)) = if b then x else y := by
  cases b
  · show x ^^^ ((x ^^^ y) &&& (0#64 - 1#64)) = y
    rw [and_sub_one_zero, ← BitVec.xor_assoc]; simp
  · show x ^^^ ((x ^^^ y) &&& (1#64 - 1#64)) = x
    rw [and_sub_one_one]; simp

theorem mask (m : W) (b : Bool) : m &&& -(BitVec.ofNat 64 b.toNat) = if b then m else 0 := by
  cases b
  · simp
  · exact and_neg_one m

theorem mask' (m : W) (b : Bool) : m &&& ((BitVec.ofNat 64 b.toNat) - 1#64) = if b then 0 else m := by
  cases b
  · exact and_sub_one_zero m
  · exact and_sub_one_one m

theorem toNat_shr (m : W) (k : ℕ) : (m >>> k).toNat = m.toNat / 2 ^ k := by
  rw [BitVec.toNat_ushiftRight, Nat.shiftRight_eq_div_pow]

theorem toNat_shl (m : W) (k : ℕ) (h : m.toNat * 2 ^ k < 2 ^ 64) : (m <<< k).toNat = m.toNat * 2 ^ k := by
  rw [BitVec.toNat_shiftLeft, Nat.shiftLeft_eq, Nat.mod_eq_of_lt h]

/-- The top bit of a 32-bit word made from a small `int`: the sign. -/
theorem sign32 (e : ℤ) (h1 : -2 ^ 31 ≤ e) (h2 : e < 2 ^ 31) : (BitVec.ofInt 32 e) >>> 31 = BitVec.ofNat 32 (decide (e < 0)).toNat := by
  apply BitVec.eq_of_toNat_eq
  rw [BitVec.toNat_ushiftRight, Nat.shiftRight_eq_div_pow, BitVec.toNat_ofInt]
  by_cases h : e < 0
  · have : (e % ((2 ^ 32 : ℕ) : ℤ)) = e + 2 ^ 32 := by
      rw [← Int.add_emod_right, Int.emod_eq_of_lt] <;> push_cast <;> omega
    rw [this, decide_eq_true h]
    have : (e + 2 ^ 32).toNat / 2 ^ 31 = 1 := by omega
    rw [this]; rfl
  · have : (e % ((2 ^ 32 : ℕ) : ℤ)) = e := by rw [Int.emod_eq_of_lt] <;> push_cast <;> omega
    rw [this, decide_eq_false h]
    have : e.toNat / 2 ^ 31 = 0 := by omega
    rw [this]; rfl

theorem setWidth_bit (b : Bool) : (BitVec.ofNat 32 b.toNat).setWidth 64 = BitVec.ofNat 64 b.toNat := by cases b <;> rfl

/-- `(x | -x) >> 63`: is the word non-zero? -/
theorem nonzero64 (x : W) : (x ||| -x) >>> 63 = BitVec.ofNat 64 (decide (x ≠ 0)).toNat := by
  apply BitVec.eq_of_toNat_eq
  rw [BitVec.toNat_ushiftRight, BitVec.toNat_or, Nat.shiftRight_or_distrib, Nat.shiftRight_eq_div_pow, Nat.shiftRight_eq_div_pow, BitVec.toNat_neg]
  have hx := x.isLt
  by_cases h : x = 0
  · subst h; rfl
  · have hn : x.toNat ≠ 0 := fun h0 => h (BitVec.eq_of_toNat_eq h0)
    rw [decide_eq_true h]
    generalize x.toNat = v at *
    rw [Nat.mod_eq_of_lt (by omega)]
    have h1 : v / 2 ^ 63 = 0 ∨ v / 2 ^ 63 = 1 := by omega
    have h2 : (2 ^ 64 - v) / 2 ^ 63 = 0 ∨ (2 ^ 64 - v) / 2 ^ 63 = 1 := by omega
    have h3 : v / 2 ^ 63 = 0 → (2 ^ 64 - v) / 2 ^ 63 = 1 := by omega
    rcases h1 with h1 | h1
    · rw [h1, h3 h1]; rfl
    · rcases h2 with h2 | h2 <;> rw [h1, h2] <;> rfl

/-- The same for 32 bits. -/
theorem nonzero32 (x : BitVec 32) : (x ||| -x) >>> 31 = BitVec.ofNat 32 (decide (x ≠ 0)).toNat := by
  apply BitVec.eq_of_toNat_eq
  rw [BitVec.toNat_ushiftRight, BitVec.toNat_or, Nat.shiftRight_or_distrib, Nat.shiftRight_eq_div_pow, Nat.shiftRight_eq_div_pow, BitVec.toNat_neg]
  have hx := x.isLt
  by_cases h : x = 0
  · subst h; rfl
  · have hn : x.toNat ≠ 0 := fun h0 => h (BitVec.eq_of_toNat_eq h0)
    rw [decide_eq_true h]
    generalize x.toNat = v at *
    rw [Nat.mod_eq_of_lt (by omega)]
    have h1 : v / 2 ^ 31 = 0 ∨ v / 2 ^ 31 = 1 := by omega
    have h2 : (2 ^ 32 - v) / 2 ^ 31 = 0 ∨ (2 ^ 32 - v) / 2 ^ 31 = 1 := by omega
    have h3 : v / 2 ^ 31 = 0 → (2 ^ 32 - v) / 2 ^ 31 = 1 := by omega
    rcases h1 with h1 | h1
    · rw [h1, h3 h1]; rfl
    · rcases h2 with h2 | h2 <;> rw [h1, h2] <;> rfl

/-- Disjoint bits: or is addition. -/
theorem or_add (a b k : ℕ) (hb : b < 2 ^ k) (ha : a % 2 ^ k = 0) : a ||| b = a + b := by
  have : a = (a / 2 ^ k) <<< k := by rw [Nat.shiftLeft_eq]; exact (Nat.div_mul_cancel (Nat.dvd_of_mod_eq_zero ha)).symm
  rw [this, Nat.shiftLeft_add_eq_or_of_lt hb]

theorem or_one (a : ℕ) : a ||| 1 = a + (1 - a % 2) := by
  rcases Nat.mod_two_eq_zero_or_one a with h | h
  · rw [or_add a 1 1 (by norm_num) h, h]
  · obtain ⟨b, rfl⟩ : ∃ b, a = 2 * b + 1 := ⟨a / 2, by omega⟩
    have h1 : 2 * b + 1 = 2 * b ||| 1 := by rw [or_add (2 * b) 1 1 (by norm_num) (by omega)]
    have h2 : (2 * b + 1) % 2 = 1 := by omega
    rw [h2, Nat.sub_self, Nat.add_zero, h1, Nat.or_assoc, Nat.or_self]

theorem and_mask (x k : ℕ) : x &&& (2 ^ k - 1) = x % 2 ^ k := Nat.and_two_pow_sub_one_eq_mod x k

/-- The fields of a word. -/
theorem fields (x : W) : x.toNat = sgn x * 2 ^ 63 + expo x * 2 ^ 52 + mant x ∧ sgn x < 2 ∧ expo x < 2 ^ 11 ∧ mant x < 2 ^ 52 := by
  unfold sgn expo mant
  have := x.isLt
  omega

theorem fields_of (x : W) (s e m : ℕ) (he : e < 2 ^ 11) (hm : m < 2 ^ 52) (h : x.toNat = s * 2 ^ 63 + e * 2 ^ 52 + m) : sgn x = s ∧ expo x = e ∧ mant x = m := by
  unfold sgn expo mant
  omega

theorem ursh_eq (x : W) (n : ℕ) (hn : n < 64) : ursh x n = x >>> n := by
  unfold ursh
  simp only
  have h31 : n &&& 31 = n % 32 := and_mask n 5
  rw [h31, Nat.shiftRight_eq_div_pow]
  by_cases h : n < 32
  · rw [show n / 2 ^ 5 = 0 by omega, Nat.mod_eq_of_lt h]
    have := condxor x (x >>> 32) false
    simp only [Bool.toNat_false] at this
    rw [this]
    rfl
  · rw [show n / 2 ^ 5 = 1 by omega]
    have := condxor x (x >>> 32) true
    simp only [Bool.toNat_true] at this
    rw [this, if_pos trivial, ← BitVec.shiftRight_add]
    congr 1; omega

theorem ulsh_eq (x : W) (n : ℕ) (hn : n < 64) : ulsh x n = x <<< n := by
  unfold ulsh
  simp only
  have h31 : n &&& 31 = n % 32 := and_mask n 5
  rw [h31, Nat.shiftRight_eq_div_pow]
  by_cases h : n < 32
  · rw [show n / 2 ^ 5 = 0 by omega, Nat.mod_eq_of_lt h]
    have := condxor x (x <<< 32) false
    simp only [Bool.toNat_false] at this
    rw [this]
    rfl
  · rw [show n / 2 ^ 5 = 1 by omega]
    have := condxor x (x <<< 32) true
    simp only [Bool.toNat_true] at this
    rw [this, if_pos trivial, ← BitVec.shiftLeft_add]
    congr 1; omega

theorem irsh_eq (x : W) (n : ℕ) (hn : n < 64) : irsh x n = x.sshiftRight n := by
  unfold irsh
  simp only
  have h31 : n &&& 31 = n % 32 := and_mask n 5
  rw [h31, Nat.shiftRight_eq_div_pow]
  by_cases h : n < 32
  · rw [show n / 2 ^ 5 = 0 by omega, Nat.mod_eq_of_lt h]
    have := condxor x (x.sshiftRight 32) false
    simp only [Bool.toNat_false] at this
    rw [this]
    rfl
  · rw [show n / 2 ^ 5 = 1 by omega]
    have := condxor x (x.sshiftRight 32) true
    simp only [Bool.toNat_true] at this
    rw [this, if_pos trivial, ← BitVec.sshiftRight_add]
    congr 1; omega

/-! ## Packing -/

/-- An integer stands for a real number as a mantissa with a sticky low bit: equal if even, within one if odd. -/
def Sticky (m : ℕ) (R : ℝ) : Prop := |R - m| < 1 ∧ (Even m → R = m)

theorem sticky_exact (m : ℕ) : Sticky m m := ⟨by simp, fun _ => rfl⟩

/-- The integer the packing function forms from a mantissa. -/
def roundBits (m : ℕ) : ℕ := m / 4 + ((0xC8 >>> (m % 8)) &&& 1)

theorem roundBits_cases (m : ℕ) : roundBits m = if m % 4 = 3 ∨ m % 8 = 6 then m / 4 + 1 else m / 4 := by
  unfold roundBits
  have h8 : m % 8 < 8 := Nat.mod_lt _ (by norm_num)
  have h4 : m % 4 = m % 8 % 4 := by omega
  rw [h4]
  interval_cases m % 8 <;> rfl

theorem rne_sticky (m : ℕ) (R : ℝ) (h : Sticky m R) : rne (R / 4) = roundBits m := by
  obtain ⟨h1, h2⟩ := h
  rw [abs_lt] at h1
  obtain ⟨a, ha⟩ : ∃ a, m / 4 = a := ⟨_, rfl⟩
  have hm : m = 4 * a + m % 4 := by omega
  have hmR : (m : ℝ) = 4 * (a : ℝ) + ((m % 4 : ℕ) : ℝ) := by exact_mod_cast hm
  obtain ⟨d, hd⟩ : ∃ d, R / 4 - a = d := ⟨_, rfl⟩
  have hR : R / 4 = ((a : ℤ) : ℝ) + d := by push_cast; linarith
  have hRd : R = 4 * a + 4 * d := by linarith
  rw [roundBits_cases, ha, hR]
  have h4 : m % 4 < 4 := Nat.mod_lt _ (by norm_num)
  have hev : ∀ k, m % 4 = 2 * k → R = m := fun k hk => h2 ⟨2 * a + k, by omega⟩
  have hcase : m % 4 = 0 ∨ m % 4 = 1 ∨ m % 4 = 2 ∨ m % 4 = 3 := by omega
  rcases hcase with c | c | c | c
  · rw [c] at hmR
    have := hev 0 (by omega)
    have hd0 : d = 0 := by push_cast at hmR; linarith
    have : ¬ (m % 4 = 3 ∨ m % 8 = 6) := by omega
    rw [if_neg this, hd0]
    exact rne_nat_add a 0 le_rfl (by norm_num) (by norm_num)
  · rw [c] at hmR
    push_cast at hmR
    have : ¬ (m % 4 = 3 ∨ m % 8 = 6) := by omega
    rw [if_neg this]
    exact rne_nat_add a d (by linarith) (fun e => by linarith) (by linarith)
  · rw [c] at hmR
    push_cast at hmR
    have := hev 1 (by omega)
    have hd0 : d = 1 / 2 := by linarith
    rw [hd0]
    by_cases c6 : m % 8 = 6
    · have : m % 4 = 3 ∨ m % 8 = 6 := .inr c6
      rw [if_pos this]
      have := rne_nat_add_up a (1 / 2) (by norm_num) (fun _ => by rw [Int.even_iff]; omega) (by norm_num)
      push_cast
      exact this
    · have : ¬ (m % 4 = 3 ∨ m % 8 = 6) := by omega
      rw [if_neg this]
      exact rne_nat_add a (1 / 2) (by norm_num) (fun _ => by rw [Int.even_iff]; omega) (by norm_num)
  · rw [c] at hmR
    push_cast at hmR
    have : m % 4 = 3 ∨ m % 8 = 6 := .inl c
    rw [if_pos this]
    have := rne_nat_add_up a d (by linarith) (fun e => by linarith) (by linarith)
    push_cast
    exact this

theorem sticky_range (m : ℕ) (R : ℝ) (h : Sticky m R) (k : ℕ) (hk : 0 < k) (h1 : 2 ^ k ≤ m) (h2 : m < 2 ^ (k + 1)) : (2 : ℝ) ^ k ≤ R ∧ R < (2 : ℝ) ^ (k + 1) := by
  obtain ⟨s1, s2⟩ := h
  rw [abs_lt] at s1
  have e1 : Even (2 ^ k) := by rw [Nat.even_pow]; exact ⟨by norm_num, by omega⟩
  have e2 : Even (2 ^ (k + 1)) := by rw [Nat.even_pow]; exact ⟨by norm_num, by omega⟩
  have c1 : (2 : ℝ) ^ k ≤ m := by exact_mod_cast h1
  have c2 : (m : ℝ) + 1 ≤ (2 : ℝ) ^ (k + 1) := by exact_mod_cast h2
  refine ⟨?_, by linarith⟩
  by_cases he : Even m
  · rw [s2 he]; exact c1
  · have : 2 ^ k + 1 ≤ m := by
      rcases Nat.lt_or_ge (2 ^ k) m with h | h
      · exact h
      · exfalso; apply he; rw [show m = 2 ^ k by omega]; exact e1
    have c3 : (2 : ℝ) ^ k + 1 ≤ m := by exact_mod_cast this
    linarith

theorem toNat_and_seven (m : W) : (m &&& 7#64).toNat = m.toNat % 8 := by
  rw [BitVec.toNat_and]
  exact and_mask m.toNat 3

/-- The word built by `FPR` in the normal case. -/
theorem pack_toNat (s : ℕ) (hs : s < 2) (e : ℤ) (m : W) (h1 : 2 ^ 54 ≤ m.toNat) (h2 : m.toNat < 2 ^ 55) (he1 : -1076 ≤ e) (he2 : e ≤ 969) :
    (pack s e m).toNat = (s * 2 ^ 63 + (e + 1076).toNat * 2 ^ 52 + roundBits m.toNat) % 2 ^ 64 := by
  unfold pack
  simp only
  rw [sign32 _ (by omega) (by omega), setWidth_bit, mask', decide_eq_false (by omega)]
  simp only [Bool.false_eq_true, if_false]
  have ht : (m >>> 54).setWidth 32 = 1#32 := by
    apply BitVec.eq_of_toNat_eq
    rw [BitVec.toNat_setWidth, toNat_shr]
    have : m.toNat / 2 ^ 54 = 1 := by omega
    rw [this]; rfl
  rw [ht, show -(1#32) = BitVec.allOnes 32 by decide, BitVec.and_allOnes, BitVec.toNat_add, BitVec.toNat_add, BitVec.toNat_or, toNat_shr, toNat_and_seven]
  have hE : ((BitVec.setWidth 64 (BitVec.ofInt 32 (e + 1076))) <<< 52).toNat = (e + 1076).toNat * 2 ^ 52 := by
    have h0 : (BitVec.setWidth 64 (BitVec.ofInt 32 (e + 1076))).toNat = (e + 1076).toNat := by
      rw [BitVec.toNat_setWidth, BitVec.toNat_ofInt]
      have : ((e + 1076) % ((2 ^ 32 : ℕ) : ℤ)) = e + 1076 := by rw [Int.emod_eq_of_lt] <;> push_cast <;> omega
      rw [this]
      omega
    rw [toNat_shl _ _ (by rw [h0]; omega), h0]
  have hS : (BitVec.ofNat 64 s <<< 63).toNat = s * 2 ^ 63 := by
    have h0 : (BitVec.ofNat 64 s).toNat = s := by rw [BitVec.toNat_ofNat]; omega
    rw [toNat_shl _ _ (by rw [h0]; omega), h0]
  rw [hE, hS, or_add _ _ 63 (by omega) (by omega)]
  have hb : (BitVec.ofNat 64 ((0xC8 >>> (m.toNat % 8)) &&& 1)).toNat = (0xC8 >>> (m.toNat % 8)) &&& 1 := by
    rw [BitVec.toNat_ofNat, Nat.mod_eq_of_lt]
    exact lt_of_le_of_lt Nat.and_le_right (by norm_num)
  rw [hb]
  unfold roundBits
  omega

/-- A zero mantissa, or an exponent below the normal range, gives a zero with the sign `s`. -/
theorem pack_zero (s : ℕ) (hs : s < 2) (e : ℤ) (m : W) (h : m = 0 ∨ (e < -1076 ∧ -2 ^ 30 < e)) : (pack s e m).toNat = s * 2 ^ 63 := by
  have key : ∀ e' : BitVec 32, ((BitVec.ofNat 64 s <<< 63 ||| (0 : W) >>> 2) + ((e' &&& -(((0 : W) >>> 54).setWidth 32)).setWidth 64 <<< 52) +
      BitVec.ofNat 64 ((0xC8 >>> ((0 : W) &&& 7#64).toNat) &&& 1)).toNat = s * 2 ^ 63 := by
    intro e'
    have hz : -(((0 : W) >>> 54).setWidth 32) = (0 : BitVec 32) := by decide
    rw [hz]
    have hS : (BitVec.ofNat 64 s <<< 63).toNat = s * 2 ^ 63 := by
      have h0 : (BitVec.ofNat 64 s).toNat = s := by rw [BitVec.toNat_ofNat]; omega
      rw [toNat_shl _ _ (by rw [h0]; omega), h0]
    simp [hS]
  unfold pack
  simp only
  rcases h with rfl | ⟨h1, h2⟩
  · simp only [show ∀ a : W, (0 : W) &&& a = 0 from fun a => BitVec.zero_and]
    exact key _
  · rw [sign32 _ (by omega) (by omega), setWidth_bit, mask', decide_eq_true (by omega)]
    simp only [if_true]
    exact key _

theorem ok_zero (z : W) (s : ℕ) (h : z.toNat = s * 2 ^ 63) : Ok z ∧ val z = 0 ∧ sgn z = s := by
  obtain ⟨f1, f2, f3⟩ := fields_of z s 0 0 (by norm_num) (by norm_num) (by rw [h, Nat.zero_mul, Nat.add_zero])
  exact ⟨⟨by rw [f2]; norm_num, fun _ => f3⟩, by unfold val; rw [if_pos f2], f1⟩

/-- **Packing rounds to nearest, ties to even**: for every real number `R` in `[2^54, 2^55)` for which the mantissa `m` stands with a sticky low bit. -/
theorem pack_spec (s : ℕ) (hs : s < 2) (e : ℤ) (he : -2 ^ 30 < e) (m : W) (h1 : 2 ^ 54 ≤ m.toNat) (h2 : m.toNat < 2 ^ 55) (R : ℝ) (h : Sticky m.toNat R) :
    Rounded ((-1) ^ s * (R * (2 : ℝ) ^ e)) (pack s e m) := by
  obtain ⟨r1, r2⟩ := sticky_range _ R h 54 (by norm_num) h1 h2
  have hRpos : 0 < R := lt_of_lt_of_le (by positivity) r1
  have hu : (0 : ℝ) < (2 : ℝ) ^ e := by positivity
  have habs : |(-1) ^ s * (R * (2 : ℝ) ^ e)| = R * (2 : ℝ) ^ e := by
    rw [abs_mul, abs_pow, abs_neg, abs_one, one_pow, one_mul, abs_of_pos (by positivity)]
  have hbase : (2 : ℝ) ^ (-1022 : ℤ) = 2 ^ 54 * (2 : ℝ) ^ (-1076 : ℤ) := by
    rw [← zpow_natCast, ← zpow_add₀ (by norm_num)]; norm_num
  unfold Rounded
  rw [habs]
  constructor
  · intro hlt
    have hee : e < -1076 := by
      by_contra hc
      have : (2 : ℝ) ^ (-1076 : ℤ) ≤ (2 : ℝ) ^ e := zpow_le_zpow_right₀ (by norm_num) (by omega)
      have h3 : 2 ^ 54 * (2 : ℝ) ^ (-1076 : ℤ) ≤ R * (2 : ℝ) ^ e := mul_le_mul r1 this (by positivity) hRpos.le
      rw [hbase] at hlt
      linarith
    obtain ⟨z1, z2, _⟩ := ok_zero _ s (pack_zero s hs e m (.inr ⟨hee, he⟩))
    exact ⟨z1, z2⟩
  · intro hlo hhi
    have hee : -1076 ≤ e := by
      by_contra hc
      have h3 : (2 : ℝ) ^ e ≤ (2 : ℝ) ^ (-1077 : ℤ) := zpow_le_zpow_right₀ (by norm_num) (by omega)
      have h4 : R * (2 : ℝ) ^ e < 2 ^ 55 * (2 : ℝ) ^ (-1077 : ℤ) := mul_lt_mul r2 h3 hu (by positivity)
      have h5 : (2 : ℝ) ^ 55 * (2 : ℝ) ^ (-1077 : ℤ) = (2 : ℝ) ^ (-1022 : ℤ) := by
        rw [← zpow_natCast, ← zpow_add₀ (by norm_num)]; norm_num
      linarith
    have hee2 : e ≤ 969 := by
      by_contra hc
      have h3 : (2 : ℝ) ^ (970 : ℤ) ≤ (2 : ℝ) ^ e := zpow_le_zpow_right₀ (by norm_num) (by omega)
      have h4 : 2 ^ 54 * (2 : ℝ) ^ (970 : ℤ) ≤ R * (2 : ℝ) ^ e := mul_le_mul r1 h3 (by positivity) hRpos.le
      have h5 : (2 : ℝ) ^ 54 * (2 : ℝ) ^ (970 : ℤ) = 2 ^ 1024 := by
        rw [show (970 : ℤ) = ((970 : ℕ) : ℤ) by rfl, zpow_natCast, ← pow_add]
      have h6 : (0 : ℝ) < 2 ^ 970 := by positivity
      rw [h5] at h4
      exact absurd (lt_of_le_of_lt h4 (lt_of_lt_of_le hhi (sub_le_self _ h6.le))) (lt_irrefl _)
    have hrne := rne_sticky _ R h
    obtain ⟨M, hM⟩ : ∃ M, roundBits m.toNat = M := ⟨_, rfl⟩
    have hM1 : 2 ^ 52 ≤ M := by rw [← hM, roundBits_cases]; split <;> omega
    have hM2 : M ≤ 2 ^ 53 := by rw [← hM, roundBits_cases]; split <;> omega
    -- the result of the specification
    have hrnd : rnd (R * (2 : ℝ) ^ e) = (M : ℝ) * (2 : ℝ) ^ (e + 2) := by
      have e1 : (2 : ℝ) ^ (e + 2 + 52) = 2 ^ 54 * (2 : ℝ) ^ e := by
        rw [← zpow_natCast, ← zpow_add₀ (by norm_num)]; congr 1; push_cast; ring
      have e2 : (2 : ℝ) ^ (e + 2 + 53) = 2 ^ 55 * (2 : ℝ) ^ e := by
        rw [← zpow_natCast, ← zpow_add₀ (by norm_num)]; congr 1; push_cast; ring
      rw [rnd_of_range _ (e + 2) (by rw [e1]; exact mul_le_mul_of_nonneg_right r1 hu.le) (by rw [e2]; exact mul_lt_mul_of_pos_right r2 hu)]
      have e3 : R * (2 : ℝ) ^ e / (2 : ℝ) ^ (e + 2) = R / 4 := by
        rw [zpow_add₀ (by norm_num)]
        field_simp
        norm_num
      rw [e3, hrne, hM]
      push_cast
      rfl
    have hnat := pack_toNat s hs e m h1 h2 hee hee2
    rw [hM] at hnat
    obtain ⟨E, hE⟩ : ∃ E : ℕ, (e + 1076).toNat = E := ⟨_, rfl⟩
    rw [hE] at hnat
    have hEe : (E : ℤ) = e + 1076 := by omega
    -- no overflow of the exponent
    have hov : E = 2045 → M < 2 ^ 53 := by
      intro hE5
      have he9 : e = 969 := by omega
      have h3 : R < 2 ^ 55 - 2 := by
        rw [he9, show (969 : ℤ) = ((969 : ℕ) : ℤ) by rfl, zpow_natCast] at hhi
        have h4 : (2 : ℝ) ^ 1024 - 2 ^ 970 = (2 ^ 55 - 2) * 2 ^ 969 := by
          rw [sub_mul, ← pow_add, ← pow_succ']
        rw [h4] at hhi
        exact lt_of_mul_lt_mul_right hhi (by positivity)
      by_contra hc
      have hM3 : M = 2 ^ 53 := by omega
      have hd := (rne_dist (R / 4)).1
      rw [hrne, hM, hM3] at hd
      have := (abs_le.1 hd).1
      push_cast at this
      linarith
    by_cases c : M < 2 ^ 53
    · have hn2 : (pack s e m).toNat = s * 2 ^ 63 + (E + 1) * 2 ^ 52 + (M - 2 ^ 52) := by rw [hnat]; omega
      obtain ⟨f1, f2, f3⟩ := fields_of _ s (E + 1) (M - 2 ^ 52) (by omega) (by omega) hn2
      refine ⟨⟨by rw [f2]; omega, fun h0 => by omega⟩, ?_⟩
      unfold val
      rw [rnd_sign, hrnd, f1, f2, f3, if_neg (by omega), show 2 ^ 52 + (M - 2 ^ 52) = M by omega, mul_assoc]
      congr 3
      push_cast
      omega
    · have hM3 : M = 2 ^ 53 := by omega
      have hE2 : E < 2045 := by
        by_contra hc
        exact c (hov (by omega))
      have hn2 : (pack s e m).toNat = s * 2 ^ 63 + (E + 2) * 2 ^ 52 + 0 := by rw [hnat]; omega
      obtain ⟨f1, f2, f3⟩ := fields_of _ s (E + 2) 0 (by omega) (by omega) hn2
      refine ⟨⟨by rw [f2]; omega, fun h0 => by omega⟩, ?_⟩
      unfold val
      rw [rnd_sign, hrnd, f1, f2, f3, if_neg (by omega), hM3, mul_assoc]
      congr 1
      have : (2 : ℝ) ^ (((E + 2 : ℕ) : ℤ) - 1075) = 2 * (2 : ℝ) ^ (e + 2) := by
        rw [show ((E + 2 : ℕ) : ℤ) - 1075 = (e + 2) + 1 by push_cast; omega, zpow_add₀ (by norm_num)]
        ring
      rw [this]
      push_cast
      ring

end Verif.CRef.Fpr
