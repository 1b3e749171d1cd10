import Verif.CRef.FprSqrt

/-! # C99: normalisation, conversion from integers -/

namespace Verif.CRef.Fpr

/-- One conditional shift: the value `m·2^e` stays the same. -/
theorem normStep_spec (k : ℕ) (hk : 0 < k) (hk2 : k ≤ 32) (m : W) (e : ℤ) (hm : 2 ^ (64 - 2 * k) ≤ m.toNat) :
    ∃ j : ℕ, ∃ m' : W, normStep k (m, e) = (m', e + k - j) ∧ m'.toNat = m.toNat * 2 ^ j ∧ 2 ^ (64 - k) ≤ m'.toNat ∧ j ≤ k := by
  unfold normStep
  simp only
  have hlt := m.isLt
  have hdiv : m.toNat / 2 ^ (64 - k) < 2 ^ 32 := by
    rw [Nat.div_lt_iff_lt_mul (by positivity), ← pow_add]
    exact lt_of_lt_of_le hlt (Nat.pow_le_pow_right (by norm_num) (by omega))
  have hsw : ((m >>> (64 - k)).setWidth 32).toNat = m.toNat / 2 ^ (64 - k) := by
    rw [BitVec.toNat_setWidth, toNat_shr, Nat.mod_eq_of_lt hdiv]
  rw [nonzero32, setWidth_bit, condxor']
  have hpow : 2 ^ (64 - k) * 2 ^ k = 2 ^ 64 := by rw [← pow_add]; congr 1; omega
  by_cases c : m.toNat < 2 ^ (64 - k)
  · have hz : (m >>> (64 - k)).setWidth 32 = 0 := by
      apply BitVec.eq_of_toNat_eq; rw [hsw, Nat.div_eq_of_lt c]; rfl
    rw [hz]
    have hml : m.toNat * 2 ^ k < 2 ^ 64 := by rw [← hpow]; exact Nat.mul_lt_mul_of_pos_right c (by positivity)
    refine ⟨k, m <<< k, ?_, toNat_shl _ _ hml, ?_, le_rfl⟩
    · simp
    · rw [toNat_shl _ _ hml]
      calc 2 ^ (64 - k) = 2 ^ (64 - 2 * k) * 2 ^ k := by rw [← pow_add]; congr 1; omega
        _ ≤ _ := Nat.mul_le_mul_right _ hm
  · have hz : (m >>> (64 - k)).setWidth 32 ≠ 0 := by
      intro h
      have h2 := congrArg BitVec.toNat h
      rw [hsw] at h2
      have : 0 < m.toNat / 2 ^ (64 - k) := Nat.div_pos (by omega) (by positivity)
      simp at h2
      omega
    rw [decide_eq_true hz]
    refine ⟨0, m, ?_, by simp, by omega, by omega⟩
    simp

theorem normLast_spec (m : W) (e : ℤ) (hm : 2 ^ 62 ≤ m.toNat) :
    ∃ j : ℕ, ∃ m' : W, normLast (m, e) = (m', e + 1 - j) ∧ m'.toNat = m.toNat * 2 ^ j ∧ 2 ^ 63 ≤ m'.toNat ∧ j ≤ 1 := by
  unfold normLast
  simp only
  have hlt := m.isLt
  have hsw : ((m >>> 63).setWidth 32).toNat = m.toNat / 2 ^ 63 := by
    rw [BitVec.toNat_setWidth, toNat_shr]; omega
  by_cases c : m.toNat < 2 ^ 63
  · have hz : (m >>> 63).setWidth 32 = BitVec.ofNat 32 false.toNat := by
      apply BitVec.eq_of_toNat_eq; rw [hsw]; show _ = 0; omega
    rw [hz, setWidth_bit, condxor']
    refine ⟨1, m <<< 1, ?_, toNat_shl _ _ (by omega), ?_, le_rfl⟩
    · simp
    · rw [toNat_shl _ _ (by omega)]; omega
  · have hz : (m >>> 63).setWidth 32 = BitVec.ofNat 32 true.toNat := by
      apply BitVec.eq_of_toNat_eq; rw [hsw]; show _ = 1; omega
    rw [hz, setWidth_bit, condxor']
    refine ⟨0, m, ?_, by simp, by omega, by omega⟩
    simp

/-- Normalisation of a non-zero word: the top bit is set, the value `m·2^e` stays the same. -/
theorem norm64_spec (m : W) (e : ℤ) (h : m ≠ 0) : ∃ (j : ℕ) (m' : W), norm64 m e = (m', e - j) ∧ m'.toNat = m.toNat * 2 ^ j ∧ 2 ^ 63 ≤ m'.toNat := by
  have hm : 2 ^ (64 - 2 * 32) ≤ m.toNat := by
    have : m.toNat ≠ 0 := fun h0 => h (BitVec.eq_of_toNat_eq h0)
    norm_num
    omega
  unfold norm64
  obtain ⟨j1, m1, e1, f1, g1, _⟩ := normStep_spec 32 (by norm_num) (by norm_num) m (e - 63) hm
  obtain ⟨j2, m2, e2, f2, g2, _⟩ := normStep_spec 16 (by norm_num) (by norm_num) m1 (e - 63 + (32 : ℕ) - j1) g1
  obtain ⟨j3, m3, e3, f3, g3, _⟩ := normStep_spec 8 (by norm_num) (by norm_num) m2 _ g2
  obtain ⟨j4, m4, e4, f4, g4, _⟩ := normStep_spec 4 (by norm_num) (by norm_num) m3 _ g3
  obtain ⟨j5, m5, e5, f5, g5, _⟩ := normStep_spec 2 (by norm_num) (by norm_num) m4 _ g4
  obtain ⟨j6, m6, e6, f6, g6, _⟩ := normLast_spec m5 _ g5
  rw [e1, e2, e3, e4, e5, e6]
  refine ⟨j1 + j2 + j3 + j4 + j5 + j6, m6, ?_, ?_, g6⟩
  · congr 1; push_cast; ring
  · rw [f6, f5, f4, f3, f2, f1]; ring

theorem normStep_zero (k : ℕ) (e : ℤ) : (normStep k (0, e)).1 = 0 := by
  unfold normStep
  simp

theorem norm64_zero (e : ℤ) : (norm64 0 e).1 = 0 := by
  unfold norm64
  have hs : ∀ (k : ℕ) (a : W × ℤ), a.1 = 0 → (normStep k a).1 = 0 := by
    rintro k ⟨m, e⟩ h; simp only at h; subst h; exact normStep_zero k e
  have hl : ∀ a : W × ℤ, a.1 = 0 → (normLast a).1 = 0 := by
    rintro ⟨m, e⟩ h; simp only at h; subst h; unfold normLast; simp
  exact hl _ (hs _ _ (hs _ _ (hs _ _ (hs _ _ (hs _ _ rfl)))))

theorem norm64_exp (m : W) (e : ℤ) : e - 63 ≤ (norm64 m e).2 ∧ (norm64 m e).2 ≤ e := by
  have hs : ∀ (k : ℕ) (a : W × ℤ), a.2 ≤ (normStep k a).2 ∧ (normStep k a).2 ≤ a.2 + k := by
    rintro k ⟨m, e⟩
    unfold normStep
    simp only
    rw [nonzero32]
    obtain ⟨b, hb⟩ : ∃ b, (decide ((m >>> (64 - k)).setWidth 32 ≠ (0 : BitVec 32))) = b := ⟨_, rfl⟩
    rw [hb]
    cases b <;> simp
  have hl : ∀ a : W × ℤ, a.2 ≤ (normLast a).2 ∧ (normLast a).2 ≤ a.2 + 1 := by
    rintro ⟨m, e⟩
    unfold normLast
    simp only
    have : ((m >>> 63).setWidth 32).toNat ≤ 1 := by
      have := m.isLt
      rw [BitVec.toNat_setWidth, toNat_shr]; omega
    constructor <;> omega
  unfold norm64
  obtain ⟨a1, ha1⟩ : ∃ a, normStep 32 (m, e - 63) = a := ⟨_, rfl⟩
  obtain ⟨a2, ha2⟩ : ∃ a, normStep 16 a1 = a := ⟨_, rfl⟩
  obtain ⟨a3, ha3⟩ : ∃ a, normStep 8 a2 = a := ⟨_, rfl⟩
  obtain ⟨a4, ha4⟩ : ∃ a, normStep 4 a3 = a := ⟨_, rfl⟩
  obtain ⟨a5, ha5⟩ : ∃ a, normStep 2 a4 = a := ⟨_, rfl⟩
  have h1 := hs 32 (m, e - 63)
  have h2 := hs 16 a1
  have h3 := hs 8 a2
  have h4 := hs 4 a3
  have h5 := hs 2 a4
  have h6 := hl a5
  rw [ha1, ha2, ha3, ha4, ha5]
  rw [ha1] at h1
  rw [ha2] at h2
  rw [ha3] at h3
  rw [ha4] at h4
  rw [ha5] at h5
  simp only at h1
  push_cast at h1 h2 h3 h4 h5
  omega

/-- Dropping `k` low bits into the sticky bit. -/
theorem sticky_shift (m k : ℕ) (hk : 0 < k) (R : ℝ) (h : Sticky m R) : Sticky ((m / 2 ^ k) ||| (if m % 2 ^ k = 0 then 0 else 1)) (R / (2 : ℝ) ^ k) := by
  obtain ⟨h1, h2⟩ := h
  rw [abs_lt] at h1
  have hp : 0 < 2 ^ k := by positivity
  have hpR : (0 : ℝ) < (2 : ℝ) ^ k := by positivity
  have hd : m = 2 ^ k * (m / 2 ^ k) + m % 2 ^ k := (Nat.div_add_mod m (2 ^ k)).symm
  obtain ⟨a, ha⟩ : ∃ a, m / 2 ^ k = a := ⟨_, rfl⟩
  obtain ⟨t, ht⟩ : ∃ t, m % 2 ^ k = t := ⟨_, rfl⟩
  rw [ha, ht] at hd ⊢
  have htlt : t < 2 ^ k := by rw [← ht]; exact Nat.mod_lt _ hp
  have hdR : (m : ℝ) = (2 : ℝ) ^ k * a + t := by exact_mod_cast hd
  by_cases c : t = 0
  · rw [if_pos c, Nat.or_zero]
    have hev : Even m := by
      rw [hd, c, Nat.add_zero]
      exact ((Nat.even_pow.2 ⟨by norm_num, by omega⟩).mul_right a)
    rw [h2 hev, hdR, c]
    have : ((2 : ℝ) ^ k * a + ((0 : ℕ) : ℝ)) / (2 : ℝ) ^ k = a := by simp
    rw [this]
    exact sticky_exact a
  · rw [if_neg c, or_one]
    have ht1 : (1 : ℝ) ≤ t := by exact_mod_cast Nat.one_le_iff_ne_zero.2 c
    have ht2 : (t : ℝ) + 1 ≤ (2 : ℝ) ^ k := by exact_mod_cast htlt
    have g1 : (a : ℝ) < R / (2 : ℝ) ^ k := by rw [lt_div_iff₀ hpR]; nlinarith
    have g2 : R / (2 : ℝ) ^ k < (a : ℝ) + 1 := by rw [div_lt_iff₀ hpR]; nlinarith
    rcases Nat.mod_two_eq_zero_or_one a with d | d
    · rw [d]
      refine ⟨?_, fun he => absurd he (by rw [Nat.even_iff]; omega)⟩
      push_cast
      rw [abs_lt]
      constructor <;> linarith
    · rw [d]
      refine ⟨?_, fun he => absurd he (by rw [Nat.even_iff]; omega)⟩
      push_cast
      rw [abs_lt]
      constructor <;> linarith

theorem sticky9_toNat (m : W) : (sticky9 m).toNat = (m.toNat / 2 ^ 9) ||| (if m.toNat % 2 ^ 9 = 0 then 0 else 1) := by
  unfold sticky9
  simp only
  have h1 : (m.setWidth 32 &&& 0x1FF#32).toNat = m.toNat % 2 ^ 9 := by
    rw [BitVec.toNat_and, BitVec.toNat_setWidth, show (0x1FF#32).toNat = 2 ^ 9 - 1 from rfl, and_mask]; omega
  have h2 : (((m.setWidth 32 &&& 0x1FF#32) + 0x1FF#32 : BitVec 32).setWidth 64).toNat = m.toNat % 2 ^ 9 + 511 := by
    rw [BitVec.toNat_setWidth, BitVec.toNat_add, h1, show (0x1FF#32).toNat = 511 from rfl]; omega
  rw [BitVec.toNat_ushiftRight, BitVec.toNat_or, Nat.shiftRight_or_distrib, Nat.shiftRight_eq_div_pow, Nat.shiftRight_eq_div_pow, h2]
  have h3 : (m.toNat % 2 ^ 9 + 511) / 2 ^ 9 = if m.toNat % 2 ^ 9 = 0 then 0 else 1 := by
    obtain ⟨t, ht⟩ : ∃ t, m.toNat % 2 ^ 9 = t := ⟨_, rfl⟩
    have : t < 2 ^ 9 := by omega
    rw [ht]
    split <;> omega
  rw [h3]

/-- **Normalise, fold, pack**: the common tail of `fpr_scaled` and `fpr_add`. -/
theorem normPack (s : ℕ) (hs : s < 2) (Z : W) (e : ℤ) (he : -2 ^ 29 < e) (hZ : Z ≠ 0) (R : ℝ) (h : Sticky Z.toNat R) (hex : Z.toNat < 2 ^ 54 → R = Z.toNat) :
    ∃ (m : W) (e' : ℤ), norm64 Z e = (m, e') ∧ ∀ d : ℤ, d + e' > -2 ^ 30 → Rounded ((-1) ^ s * (R * (2 : ℝ) ^ (e + d - 9))) (pack s (e' + d) (sticky9 m)) := by
  obtain ⟨j, m, e1, f1, g1⟩ := norm64_spec Z e hZ
  refine ⟨m, e - j, e1, fun d hd => ?_⟩
  have hml := m.isLt
  have hst := sticky9_toNat m
  have lo : 2 ^ 54 ≤ (sticky9 m).toNat := by rw [hst]; exact le_trans (by omega) Nat.left_le_or
  have hi : (sticky9 m).toNat < 2 ^ 55 := by
    rw [hst]
    exact Nat.or_lt_two_pow (by omega) (by split <;> norm_num)
  have key : Sticky (sticky9 m).toNat (R * (2 : ℝ) ^ j / (2 : ℝ) ^ 9) := by
    rw [hst, f1]
    by_cases c : j < 9
    · obtain ⟨t, ht, ht0⟩ : ∃ t, j + t = 9 ∧ 0 < t := ⟨9 - j, by omega, by omega⟩
      have hp : 0 < 2 ^ j := by positivity
      have e9 : 2 ^ 9 = 2 ^ t * 2 ^ j := by rw [← ht, pow_add, mul_comm]
      have e9R : (2 : ℝ) ^ 9 = 2 ^ t * 2 ^ j := by rw [← ht, pow_add, mul_comm]
      rw [e9, e9R, Nat.mul_div_mul_right _ _ hp, Nat.mul_mod_mul_right, mul_div_mul_right _ _ (by positivity)]
      have : (Z.toNat % 2 ^ t * 2 ^ j = 0) = (Z.toNat % 2 ^ t = 0) := by
        rw [Nat.mul_eq_zero]; simp
      simp only [this]
      exact sticky_shift _ t ht0 R h
    · obtain ⟨t, ht⟩ : ∃ t, j = t + 9 := ⟨j - 9, by omega⟩
      rw [ht, pow_add, ← mul_assoc, Nat.mul_div_cancel _ (by norm_num), Nat.mul_mod_left, if_pos rfl, Nat.or_zero, pow_add, ← mul_assoc, mul_div_cancel_right₀ _ (by norm_num)]
      rcases Nat.eq_zero_or_pos t with h0 | h0
      · subst h0; simpa using h
      · have hlt : Z.toNat < 2 ^ 54 := by
          by_contra hge
          have : 2 ^ 54 * 2 ^ 10 ≤ Z.toNat * 2 ^ j := Nat.mul_le_mul (by omega) (Nat.pow_le_pow_right (by norm_num) (by omega))
          omega
        rw [hex hlt]
        exact_mod_cast sticky_exact _
  have := pack_spec s hs (e - j + d) (by omega) (sticky9 m) lo hi _ key
  convert this using 2
  have hz : (2 : ℝ) ^ (e + d - 9) = (2 : ℝ) ^ j / (2 : ℝ) ^ 9 * (2 : ℝ) ^ (e - j + d) := by
    rw [← zpow_natCast, ← zpow_natCast, ← zpow_sub₀ (by norm_num), ← zpow_add₀ (by norm_num)]
    congr 1; push_cast; ring
  rw [hz]; ring

/-! ## Conversion from integers -/

/-- **C99**: `fpr_scaled(i, sc)` is `i·2^sc`, correctly rounded, for every 64-bit integer. -/
theorem C99_scaled (i : W) (sc : ℤ) (hsc : -2 ^ 20 < sc) (hsc2 : sc < 2 ^ 20) : Rounded ((int64 i : ℝ) * (2 : ℝ) ^ sc) (scaled i sc) := by
  have hi := i.isLt
  unfold scaled
  simp only
  obtain ⟨b, hb⟩ : ∃ b : Bool, b = decide (2 ^ 63 ≤ i.toNat) := ⟨_, rfl⟩
  have hs : (i >>> 63).toNat = b.toNat := by
    rw [toNat_shr, hb]
    by_cases c : 2 ^ 63 ≤ i.toNat
    · rw [decide_eq_true c]; show _ = 1; omega
    · rw [decide_eq_false c]; show _ = 0; omega
  rw [hs]
  obtain ⟨a, ha⟩ : ∃ a : W, (i ^^^ -(BitVec.ofNat 64 b.toNat)) + BitVec.ofNat 64 b.toNat = a := ⟨_, rfl⟩
  rw [ha]
  have hval : (int64 i : ℝ) = (-1) ^ b.toNat * (a.toNat : ℝ) ∧ a.toNat ≤ 2 ^ 63 := by
    unfold int64
    by_cases c : 2 ^ 63 ≤ i.toNat
    · rw [decide_eq_true c] at hb
      subst hb
      rw [if_neg (by omega)]
      have h1 : i ^^^ -(BitVec.ofNat 64 true.toNat) = ~~~i := by
        rw [show -(BitVec.ofNat 64 true.toNat) = BitVec.allOnes 64 by decide, BitVec.xor_allOnes]
      have h2 : a.toNat = 2 ^ 64 - i.toNat := by
        rw [← ha, h1, BitVec.toNat_add, BitVec.toNat_not, show (BitVec.ofNat 64 true.toNat).toNat = 1 from rfl]; omega
      constructor
      · rw [h2, Nat.cast_sub (by omega)]
        simp only [Bool.toNat_true, pow_one]
        push_cast; ring
      · omega
    · rw [decide_eq_false c] at hb
      subst hb
      rw [if_pos (by omega)]
      have h2 : a = i := by rw [← ha]; simp
      rw [h2]
      constructor
      · simp
      · omega
  obtain ⟨hv, hle⟩ := hval
  have hsb : b.toNat < 2 := by cases b <;> decide
  rw [nonzero64]
  by_cases hz : a = 0
  · rw [decide_eq_false (by simpa using hz)]
    have hz2 : BitVec.ofNat 64 false.toNat = 0#64 := rfl
    rw [hz2, and_neg_zero]
    obtain ⟨z1, z2, _⟩ := ok_zero _ _ (pack_zero b.toNat hsb (if (0#64 : W) = 0 then 0 else (norm64 a (9 + sc)).2) 0 (.inl rfl))
    have hv0 : (int64 i : ℝ) * (2 : ℝ) ^ sc = 0 := by rw [hv, hz]; simp
    rw [hv0]
    refine ⟨fun _ => ⟨z1, z2⟩, fun h => ?_⟩
    rw [abs_zero] at h
    exact absurd h (not_le.2 (by positivity))
  · rw [decide_eq_true (by simpa using hz)]
    have hz2 : BitVec.ofNat 64 true.toNat = 1#64 := rfl
    rw [hz2, and_neg_one, if_neg (by decide)]
    obtain ⟨m, e', hn, hr⟩ := normPack b.toNat hsb a (9 + sc) (by omega) hz a.toNat (sticky_exact _) (fun _ => rfl)
    have hbd := norm64_exp a (9 + sc)
    rw [hn] at hbd ⊢
    simp only at hbd ⊢
    have := hr 0 (by omega)
    rw [hv]
    convert this using 1
    · rw [show 9 + sc + 0 - 9 = sc by ring]; ring
    · rw [add_zero]

/-- `fpr_of` is the correctly rounded conversion of a 64-bit integer. -/
theorem C99_of (i : W) : Rounded (int64 i : ℝ) (of i) := by
  have := C99_scaled i 0 (by norm_num) (by norm_num)
  rwa [zpow_zero, mul_one] at this

end Verif.CRef.Fpr
