import Verif.CRef.ZintBez

/-! The reduction factors of one round of `zint_bezout`, and the sign correction. -/

namespace Verif.CRef.Kg

theorem bit01 (x : BitVec 32) : x &&& 1#32 = 0#32 ∨ x &&& 1#32 = 1#32 := by
  have h : (x &&& 1#32).toNat = x.toNat % 2 := by
    rw [BitVec.toNat_and, show (1#32).toNat = 1 by rfl, Nat.and_one_is_mod]
  rcases Nat.mod_two_eq_zero_or_one x.toNat with h' | h'
  · left; apply BitVec.eq_of_toNat_eq; rw [h, h']; rfl
  · right; apply BitVec.eq_of_toNat_eq; rw [h, h']; rfl

theorem top01 (z : BitVec 64) : (z >>> 63).setWidth 32 = 0#32 ∨ (z >>> 63).setWidth 32 = 1#32 := by
  have h : ((z >>> 63).setWidth 32).toNat = z.toNat / 2 ^ 63 := by
    rw [BitVec.toNat_setWidth, BitVec.toNat_ushiftRight, Nat.shiftRight_eq_div_pow]
    have := z.isLt
    omega
  have := z.isLt
  have h2 : z.toNat / 2 ^ 63 = 0 ∨ z.toNat / 2 ^ 63 = 1 := by omega
  rcases h2 with h' | h'
  · left; apply BitVec.eq_of_toNat_eq; rw [h, h']; rfl
  · right; apply BitVec.eq_of_toNat_eq; rw [h, h']; rfl

theorem ones32 (x : BitVec 32) : x &&& 4294967295#32 = x := by
  rw [show (4294967295#32) = BitVec.allOnes 32 by decide, BitVec.and_allOnes]

theorem ones64 (x : BitVec 64) : x &&& 18446744073709551615#64 = x := by
  rw [show (18446744073709551615#64) = BitVec.allOnes 64 by decide, BitVec.and_allOnes]

theorem xxy (x y : BitVec 64) : x ^^^ (x ^^^ y) = y := by
  rw [← BitVec.xor_assoc, BitVec.xor_self, BitVec.zero_xor]

/-- The comparison bit of a round. -/
def gtBit (t : Red) : BitVec 32 := (((t.bHi - t.aHi) ^^^ ((t.aHi ^^^ t.bHi) &&& (t.aHi ^^^ (t.bHi - t.aHi)))) >>> 63).setWidth 32

theorem redStep_even (t : Red) (i : ℕ) (h : (t.aLo >>> i) &&& 1#32 = 0#32) :
    redStep t i = { t with aHi := t.aHi >>> 1, bLo := t.bLo + t.bLo, qa := t.qa + t.qa, qb := t.qb + t.qb } := by
  unfold redStep
  rw [h]
  simp [ones32, ones64, xxy]

theorem redStep_odd_even (t : Red) (i : ℕ) (h : (t.aLo >>> i) &&& 1#32 = 1#32) (h2 : (t.bLo >>> i) &&& 1#32 = 0#32) :
    redStep t i = { t with bHi := t.bHi >>> 1, aLo := t.aLo + t.aLo, pa := t.pa + t.pa, pb := t.pb + t.pb } := by
  unfold redStep
  rw [h, h2]
  simp [ones32, ones64, xxy]

theorem redStep_gt (t : Red) (i : ℕ) (h : (t.aLo >>> i) &&& 1#32 = 1#32) (h2 : (t.bLo >>> i) &&& 1#32 = 1#32) (h3 : gtBit t = 1#32) :
    redStep t i = { aHi := (t.aHi - t.bHi) >>> 1, bHi := t.bHi, aLo := t.aLo - t.bLo, bLo := t.bLo + t.bLo, pa := t.pa - t.qa, pb := t.pb - t.qb,
                    qa := t.qa + t.qa, qb := t.qb + t.qb } := by
  unfold gtBit at h3
  unfold redStep
  dsimp only
  rw [h, h2, h3]
  simp [ones32, ones64, xxy]

theorem redStep_le (t : Red) (i : ℕ) (h : (t.aLo >>> i) &&& 1#32 = 1#32) (h2 : (t.bLo >>> i) &&& 1#32 = 1#32) (h3 : gtBit t = 0#32) :
    redStep t i = { bHi := (t.bHi - t.aHi) >>> 1, aHi := t.aHi, bLo := t.bLo - t.aLo, aLo := t.aLo + t.aLo, qa := t.qa - t.pa, qb := t.qb - t.pb,
                    pa := t.pa + t.pa, pb := t.pb + t.pb } := by
  unfold gtBit at h3
  unfold redStep
  dsimp only
  rw [h, h2, h3]
  simp [ones32, ones64, xxy]

theorem ibit (x : BitVec 32) (i : ℕ) : ((x >>> i) &&& 1#32).toNat = x.toNat / 2 ^ i % 2 := by
  rw [BitVec.toNat_and, BitVec.toNat_ushiftRight, show (1#32).toNat = 1 by rfl, Nat.and_one_is_mod, Nat.shiftRight_eq_div_pow]

/-- What holds after `i` rounds. -/
structure RInv (a0 b0 : ℤ) (i : ℕ) (t : Red) : Prop where
  p : |t.pa.toInt| + |t.pb.toInt| ≤ 2 ^ i
  q : |t.qa.toInt| + |t.qb.toInt| ≤ 2 ^ i
  la : (t.aLo.toNat : ℤ) ≡ a0 * t.pa.toInt + b0 * t.pb.toInt [ZMOD 4294967296]
  lb : (t.bLo.toNat : ℤ) ≡ a0 * t.qa.toInt + b0 * t.qb.toInt [ZMOD 4294967296]
  za : (2 : ℤ) ^ i ∣ t.aLo.toNat
  zb : (2 : ℤ) ^ i ∣ t.bLo.toNat

theorem dvd_of_mod {i : ℕ} (hi : i < 31) {x y : ℤ} (h : x ≡ y [ZMOD 4294967296]) (hy : (2 : ℤ) ^ (i + 1) ∣ y) : (2 : ℤ) ^ (i + 1) ∣ x := by
  have : (2 : ℤ) ^ (i + 1) ∣ 4294967296 := ⟨2 ^ (31 - i), by rw [← pow_add, show i + 1 + (31 - i) = 32 by omega]; norm_num⟩
  have h2 := this.trans h.symm.dvd
  have := dvd_add h2 hy
  simpa using this

theorem half_of_bit (x : BitVec 32) (i : ℕ) (hz : (2 : ℤ) ^ i ∣ x.toNat) (h : (x >>> i) &&& 1#32 = 0#32) : (2 : ℤ) ^ (i + 1) ∣ x.toNat := by
  have hb := ibit x i
  rw [h] at hb
  have hz' : 2 ^ i ∣ x.toNat := by exact_mod_cast hz
  obtain ⟨k, hk⟩ := hz'
  rw [hk, Nat.mul_div_cancel_left _ (by positivity)] at hb
  have hk2 : k % 2 = 0 := by simpa using hb.symm
  obtain ⟨m, rfl⟩ : ∃ m, k = 2 * m := ⟨k / 2, by omega⟩
  rw [hk]
  exact ⟨m, by push_cast; ring⟩

theorem diff_of_bit (x y : BitVec 32) (i : ℕ) (hz : (2 : ℤ) ^ i ∣ x.toNat) (hz2 : (2 : ℤ) ^ i ∣ y.toNat) (h : (x >>> i) &&& 1#32 = 1#32) (h2 : (y >>> i) &&& 1#32 = 1#32) :
    (2 : ℤ) ^ (i + 1) ∣ (x.toNat : ℤ) - y.toNat := by
  have hb := ibit x i
  have hc := ibit y i
  rw [h] at hb
  rw [h2] at hc
  have hz' : 2 ^ i ∣ x.toNat := by exact_mod_cast hz
  have hz2' : 2 ^ i ∣ y.toNat := by exact_mod_cast hz2
  obtain ⟨k, hk⟩ := hz'
  obtain ⟨j, hj⟩ := hz2'
  rw [hk, Nat.mul_div_cancel_left _ (by positivity)] at hb
  rw [hj, Nat.mul_div_cancel_left _ (by positivity)] at hc
  have hk2 : k % 2 = 1 := by simpa using hb.symm
  have hj2 : j % 2 = 1 := by simpa using hc.symm
  obtain ⟨m, hm⟩ : ∃ m : ℤ, (k : ℤ) - j = 2 * m := ⟨((k : ℤ) - j) / 2, by omega⟩
  rw [hk, hj]
  exact ⟨m, by push_cast; rw [← mul_sub, hm]; ring⟩

theorem small_of_abs {x y B : ℤ} (h : |x| + |y| ≤ B) : -B ≤ x ∧ x ≤ B ∧ -B ≤ y ∧ y ≤ B := by
  have h1 := abs_nonneg x
  have h2 := abs_nonneg y
  have h3 := abs_le.mp (le_refl |x|)
  have h4 := abs_le.mp (le_refl |y|)
  omega

theorem redStep_inv (a0 b0 : ℤ) (i : ℕ) (hi : i < 31) (t : Red) (h : RInv a0 b0 i t) : RInv a0 b0 (i + 1) (redStep t i) := by
  have hB : (2 : ℤ) ^ i ≤ 1073741824 := by
    calc (2 : ℤ) ^ i ≤ 2 ^ 30 := pow_le_pow_right₀ (by norm_num) (by omega)
      _ = _ := by norm_num
  have hB2 : (2 : ℤ) ^ (i + 1) = 2 * 2 ^ i := by ring
  have hBp : (0 : ℤ) < 2 ^ i := by positivity
  obtain ⟨p, q, la, lb, za, zb⟩ := h
  obtain ⟨p1, p2, p3, p4⟩ := small_of_abs p
  obtain ⟨q1, q2, q3, q4⟩ := small_of_abs q
  have dpa : (t.pa + t.pa).toInt = t.pa.toInt + t.pa.toInt := ti_add _ _ (by omega) (by omega)
  have dpb : (t.pb + t.pb).toInt = t.pb.toInt + t.pb.toInt := ti_add _ _ (by omega) (by omega)
  have dqa : (t.qa + t.qa).toInt = t.qa.toInt + t.qa.toInt := ti_add _ _ (by omega) (by omega)
  have dqb : (t.qb + t.qb).toInt = t.qb.toInt + t.qb.toInt := ti_add _ _ (by omega) (by omega)
  have spa : (t.pa - t.qa).toInt = t.pa.toInt - t.qa.toInt := ti_sub _ _ (by omega) (by omega)
  have spb : (t.pb - t.qb).toInt = t.pb.toInt - t.qb.toInt := ti_sub _ _ (by omega) (by omega)
  have sqa : (t.qa - t.pa).toInt = t.qa.toInt - t.pa.toInt := ti_sub _ _ (by omega) (by omega)
  have sqb : (t.qb - t.pb).toInt = t.qb.toInt - t.pb.toInt := ti_sub _ _ (by omega) (by omega)
  have dbl : ∀ x y B : ℤ, |x| + |y| ≤ B → |x + x| + |y + y| ≤ 2 * B := by
    intro x y B h
    rw [← two_mul, ← two_mul, abs_mul, abs_mul, show |(2 : ℤ)| = 2 by norm_num]; omega
  have sub : ∀ x y z w B : ℤ, |x| + |y| ≤ B → |z| + |w| ≤ B → |x - z| + |y - w| ≤ 2 * B := by
    intro x y z w B h1 h2
    have := abs_sub x z
    have := abs_sub y w
    omega
  have ddA : (2 : ℤ) ^ (i + 1) ∣ (t.aLo + t.aLo).toNat := dvd_of_mod hi (tn_add _ _) (by
    obtain ⟨k, hk⟩ := za; rw [hk]; exact ⟨k, by ring⟩)
  have ddB : (2 : ℤ) ^ (i + 1) ∣ (t.bLo + t.bLo).toNat := dvd_of_mod hi (tn_add _ _) (by
    obtain ⟨k, hk⟩ := zb; rw [hk]; exact ⟨k, by ring⟩)
  rcases bit01 (t.aLo >>> i) with ha | ha
  · rw [redStep_even t i ha]
    refine ⟨by dsimp only; omega, ?_, la, ?_, half_of_bit _ _ za ha, ddB⟩
    · dsimp only; rw [dqa, dqb, hB2]; exact dbl _ _ _ q
    · dsimp only; rw [dqa, dqb]
      exact (tn_add _ _).trans ((Int.ModEq.add lb lb).trans (modEq_of_eq (by ring)))
  · rcases bit01 (t.bLo >>> i) with hb | hb
    · rw [redStep_odd_even t i ha hb]
      refine ⟨?_, by dsimp only; omega, ?_, lb, ddA, half_of_bit _ _ zb hb⟩
      · dsimp only; rw [dpa, dpb, hB2]; exact dbl _ _ _ p
      · dsimp only; rw [dpa, dpb]
        exact (tn_add _ _).trans ((Int.ModEq.add la la).trans (modEq_of_eq (by ring)))
    · rcases top01 ((t.bHi - t.aHi) ^^^ ((t.aHi ^^^ t.bHi) &&& (t.aHi ^^^ (t.bHi - t.aHi)))) with hg | hg
      · rw [redStep_le t i ha hb hg]
        refine ⟨?_, ?_, ?_, ?_, ddA, ?_⟩
        · dsimp only; rw [dpa, dpb, hB2]; exact dbl _ _ _ p
        · dsimp only; rw [sqa, sqb, hB2]; exact sub _ _ _ _ _ q p
        · dsimp only; rw [dpa, dpb]
          exact (tn_add _ _).trans ((Int.ModEq.add la la).trans (modEq_of_eq (by ring)))
        · dsimp only; rw [sqa, sqb]
          exact (tn_sub _ _).trans ((Int.ModEq.sub lb la).trans (modEq_of_eq (by ring)))
        · exact dvd_of_mod hi (tn_sub _ _) (diff_of_bit _ _ i zb za hb ha)
      · rw [redStep_gt t i ha hb hg]
        refine ⟨?_, ?_, ?_, ?_, ?_, ddB⟩
        · dsimp only; rw [spa, spb, hB2]; exact sub _ _ _ _ _ p q
        · dsimp only; rw [dqa, dqb, hB2]; exact dbl _ _ _ q
        · dsimp only; rw [spa, spb]
          exact (tn_sub _ _).trans ((Int.ModEq.sub la lb).trans (modEq_of_eq (by ring)))
        · dsimp only; rw [dqa, dqb]
          exact (tn_add _ _).trans ((Int.ModEq.add lb lb).trans (modEq_of_eq (by ring)))
        · exact dvd_of_mod hi (tn_sub _ _) (diff_of_bit _ _ i za zb ha hb)

theorem redFactors_inv (a b : List ℕ) : RInv (a[0]! : ℕ) (b[0]! : ℕ) 31 (redFactors a b) := by
  unfold redFactors
  dsimp only
  obtain ⟨s, hs⟩ : ∃ s : Red, (⟨(topWords a b).1, (topWords a b).2, BitVec.ofNat 32 a[0]!, BitVec.ofNat 32 b[0]!, 1, 0, 0, 1⟩ : Red) = s := ⟨_, rfl⟩
  have h0 : RInv (a[0]! : ℕ) (b[0]! : ℕ) 0 s := by
    rw [← hs]
    refine ⟨show |(1 : BitVec 64).toInt| + |(0 : BitVec 64).toInt| ≤ 2 ^ 0 by decide, show |(0 : BitVec 64).toInt| + |(1 : BitVec 64).toInt| ≤ 2 ^ 0 by decide, ?_, ?_, by simp, by simp⟩
    · refine (tn_ofNat _).trans (modEq_of_eq ?_)
      rw [show (1 : BitVec 64).toInt = 1 by decide, show (0 : BitVec 64).toInt = 0 by decide]; ring
    · refine (tn_ofNat _).trans (modEq_of_eq ?_)
      rw [show (1 : BitVec 64).toInt = 1 by decide, show (0 : BitVec 64).toInt = 0 by decide]; ring
  rw [hs]
  have key : ∀ k, k ≤ 31 → RInv (a[0]! : ℕ) (b[0]! : ℕ) k ((List.range k).foldl redStep s) := by
    intro k
    induction k with
    | zero => intro _; exact h0
    | succ k ih =>
      intro hk
      rw [List.range_succ, List.foldl_append]
      exact redStep_inv _ _ k (by omega) _ (ih (by omega))
  exact key 31 (le_refl _)

/-- The factors of a round: small, and both combinations of the two numbers are multiples of `2^31`. -/
theorem redFactors_spec (n : ℕ) (a b : List ℕ) (la : a.length = n + 1) (lb : b.length = n + 1) :
    |(redFactors a b).pa.toInt| + |(redFactors a b).pb.toInt| ≤ 2147483648 ∧ |(redFactors a b).qa.toInt| + |(redFactors a b).qb.toInt| ≤ 2147483648 ∧
      (2147483648 : ℤ) ∣ big a * (redFactors a b).pa.toInt + big b * (redFactors a b).pb.toInt ∧
      (2147483648 : ℤ) ∣ big a * (redFactors a b).qa.toInt + big b * (redFactors a b).qb.toInt := by
  obtain ⟨p, q, ma, mb, za, zb⟩ := redFactors_inv a b
  generalize redFactors a b = f at *
  have key : ∀ (x y : ℤ) (l : ℕ), (2 : ℤ) ^ 31 ∣ l → (l : ℤ) ≡ (a[0]! : ℕ) * x + (b[0]! : ℕ) * y [ZMOD 4294967296] → (2147483648 : ℤ) ∣ big a * x + big b * y := by
    intro x y l hl hm
    have h1 := Dvd.dvd.mul_right (head_big a n la) x
    have h2 := Dvd.dvd.mul_right (head_big b n lb) y
    have h3 : (2147483648 : ℤ) ∣ (a[0]! : ℕ) * x + (b[0]! : ℕ) * y - l := (show (2147483648 : ℤ) ∣ 4294967296 by norm_num).trans hm.dvd
    have h4 := dvd_add (dvd_add (dvd_add h1 h2) h3) hl
    refine h4.trans (dvd_of_eq ?_)
    ring
  norm_num at p q
  exact ⟨p, q, key _ _ _ za ma, key _ _ _ zb mb⟩

theorem fixSign_spec (x : BitVec 64) (hx : |x.toInt| ≤ 2147483648) (neg : ℕ) (hn : neg ≤ 1) : (fixSign x neg).toInt = if neg = 1 then -x.toInt else x.toInt := by
  unfold fixSign
  obtain ⟨h1, h2⟩ := abs_le.mp hx
  have hd : (x + x).toInt = x.toInt + x.toInt := ti_add _ _ (by omega) (by omega)
  rcases (show neg = 0 ∨ neg = 1 by omega) with rfl | rfl
  · rw [show -(w64 0) = 0#64 by decide, BitVec.and_zero, BitVec.sub_zero, if_neg (by norm_num)]
  · rw [show -(w64 1) = BitVec.allOnes 64 by decide, BitVec.and_allOnes, ti_sub _ _ (by omega) (by omega), hd, if_pos rfl]
    ring

end Verif.CRef.Kg
