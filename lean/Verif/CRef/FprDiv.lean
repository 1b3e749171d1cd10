import Verif.CRef.FprMul

/-! # C99: division is correctly rounded -/

namespace Verif.CRef.Fpr

/-- The comparison by the sign of a difference: all ones when `y ≤ x`. -/
theorem geMask (x y : W) (hx : x.toNat < 2 ^ 62) (hy : y.toNat < 2 ^ 62) : ((x - y) >>> 63) - 1#64 = if y.toNat ≤ x.toNat then BitVec.allOnes 64 else 0#64 := by
  have h : (x - y) >>> 63 = BitVec.ofNat 64 (decide (x.toNat < y.toNat)).toNat := by
    apply BitVec.eq_of_toNat_eq
    rw [toNat_shr, BitVec.toNat_sub]
    by_cases c : x.toNat < y.toNat
    · rw [decide_eq_true c]; show _ = 1; omega
    · rw [decide_eq_false c]; show _ = 0; omega
  rw [h]
  by_cases c : x.toNat < y.toNat
  · rw [decide_eq_true c, if_neg (by omega)]; rfl
  · rw [decide_eq_false c, if_pos (by omega)]; rfl

theorem allOnes_and' (x : W) : BitVec.allOnes 64 &&& x = x := BitVec.allOnes_and

theorem divStep_spec (yu xu q : W) (hy : yu.toNat < 2 ^ 53) (hx : xu.toNat < 2 * yu.toNat) (hq : q.toNat < 2 ^ 62) (hq2 : q.toNat % 2 = 0) :
    ∃ b : ℕ, b < 2 ∧ (divStep yu (xu, q)).1.toNat = 2 * (xu.toNat - b * yu.toNat) ∧ b * yu.toNat ≤ xu.toNat ∧ xu.toNat - b * yu.toNat < yu.toNat ∧
      (divStep yu (xu, q)).2.toNat = 2 * (q.toNat + b) := by
  unfold divStep
  simp only
  rw [geMask xu yu (by omega) (by omega)]
  by_cases c : yu.toNat ≤ xu.toNat
  · rw [if_pos c, allOnes_and', allOnes_and']
    refine ⟨1, by norm_num, ?_, by omega, by omega, ?_⟩
    · have : (xu - yu).toNat = xu.toNat - yu.toNat := by rw [BitVec.toNat_sub]; omega
      rw [toNat_shl _ _ (by rw [this]; omega), this]; omega
    · have : (q ||| 1#64).toNat = q.toNat + 1 := by
        rw [BitVec.toNat_or]; show q.toNat ||| 1 = _
        rw [or_one, hq2]
      rw [toNat_shl _ _ (by rw [this]; omega), this]; omega
  · rw [if_neg c, BitVec.zero_and, BitVec.zero_and, BitVec.or_zero, BitVec.sub_zero]
    refine ⟨0, by norm_num, ?_, by omega, by omega, ?_⟩
    · rw [toNat_shl _ _ (by omega)]; omega
    · rw [toNat_shl _ _ (by omega)]; omega

/-- The state after `i` steps of the long division. -/
theorem divLoop (yu xu : W) (hy : yu.toNat < 2 ^ 53) (hx : xu.toNat < 2 * yu.toNat) (i : ℕ) (hi : i ≤ 60) :
    let a := (List.range i).foldl (fun a _ => divStep yu a) (xu, 0)
    xu.toNat * 2 ^ i = a.2.toNat * yu.toNat + a.1.toNat ∧ a.1.toNat < 2 * yu.toNat ∧ a.2.toNat % 2 = 0 ∧ a.2.toNat < 2 ^ (i + 1) := by
  induction i with
  | zero => exact ⟨by simp, hx, rfl, by show 0 < _; norm_num⟩
  | succ i ih =>
    obtain ⟨h1, h2, h3, h4⟩ := ih (by omega)
    simp only [List.range_succ, List.foldl_append, List.foldl_cons, List.foldl_nil]
    obtain ⟨⟨r, q⟩, ha⟩ : ∃ a, (List.range i).foldl (fun a _ => divStep yu a) (xu, 0) = a := ⟨_, rfl⟩
    rw [ha] at h1 h2 h3 h4 ⊢
    simp only at h1 h2 h3 h4
    have hq : q.toNat < 2 ^ 62 := lt_of_lt_of_le h4 (Nat.pow_le_pow_right (by norm_num) (by omega))
    obtain ⟨b, hb, s1, s2, s3, s4⟩ := divStep_spec yu r q hy h2 hq h3
    rw [s1, s4]
    refine ⟨?_, by omega, by omega, ?_⟩
    · obtain ⟨t, ht⟩ : ∃ t, r.toNat = t + b * yu.toNat := ⟨_, (Nat.sub_add_cancel s2).symm⟩
      rw [pow_succ, ← mul_assoc, h1, ht, Nat.add_sub_cancel]; ring
    · have hev : 2 ^ (i + 1) % 2 = 0 := by rw [pow_succ]; omega
      have h5 : 2 ^ (i + 1 + 1) = 2 ^ (i + 1) * 2 := pow_succ _ _
      omega

/-- **C99**: division is correctly rounded, for all zeros and normal numbers, with a non-zero divisor. -/
theorem C99_div (x y : W) (hy0 : val y ≠ 0) : Rounded (val x / val y) (div x y) := by
  have hey : expo y ≠ 0 := fun h => hy0 (val_eq_zero y h)
  unfold div
  simp only
  obtain ⟨xu, hxu⟩ : ∃ a : W, (x &&& ((1#64 <<< 52) - 1#64)) ||| (1#64 <<< 52) = a := ⟨_, rfl⟩
  obtain ⟨yu, hyu⟩ : ∃ a : W, (y &&& ((1#64 <<< 52) - 1#64)) ||| (1#64 <<< 52) = a := ⟨_, rfl⟩
  have ex : xu.toNat = 2 ^ 52 + mant x := by rw [← hxu]; exact toNat_full x
  have ey : yu.toNat = 2 ^ 52 + mant y := by rw [← hyu]; exact toNat_full y
  have mx := (fields x).2.2.2
  have my := (fields y).2.2.2
  have fx := (fields x).2.2.1
  have fy := (fields y).2.2.1
  rw [hxu, hyu, toNat_expo, toNat_expo, toNat_sgn_xor]
  have hs : (sgn x + sgn y) % 2 < 2 := Nat.mod_lt _ (by norm_num)
  by_cases hz : expo x = 0
  · have hd : (expo x + 0x7FF) >>> 11 = 0 := by rw [hz]; rfl
    rw [hd, and_neg_zero, Nat.and_zero]
    have hv : val x / val y = 0 := by rw [val_eq_zero x hz, zero_div]
    obtain ⟨z1, z2, _⟩ := ok_zero _ _ (pack_zero 0 (by norm_num) (if (0 : ℕ) = 0 then 0 else _) 0 (.inl rfl))
    rw [hv]
    refine ⟨fun _ => ⟨z1, z2⟩, fun h => ?_⟩
    rw [abs_zero] at h
    exact absurd h (not_le.2 (by positivity))
  · have hd : (expo x + 0x7FF) >>> 11 = 1 := by rw [Nat.shiftRight_eq_div_pow]; omega
    rw [hd, and_neg_one, if_neg (by norm_num)]
    have hs1 : (sgn x + sgn y) % 2 &&& 1 = (sgn x + sgn y) % 2 := by
      rw [show (1 : ℕ) = 2 ^ 1 - 1 from rfl, and_mask]; omega
    rw [hs1]
    obtain ⟨h1, h2, h3, h4⟩ := divLoop yu xu (by omega) (by omega) 55 (by norm_num)
    obtain ⟨⟨r, q⟩, ha⟩ : ∃ a, (List.range 55).foldl (fun a _ => divStep yu a) (xu, 0) = a := ⟨_, rfl⟩
    rw [ha] at h1 h2 h3 h4 ⊢
    simp only at h1 h2 h3 h4 ⊢
    rw [nonzero64]
    have hq0 : (q ||| BitVec.ofNat 64 (decide (r ≠ 0)).toNat).toNat = q.toNat + (decide (r ≠ 0)).toNat := by
      rw [BitVec.toNat_or]
      by_cases c : r = 0
      · rw [decide_eq_false (by simpa using c)]; exact Nat.or_zero _
      · rw [decide_eq_true (by simpa using c)]; show q.toNat ||| 1 = q.toNat + 1
        rw [or_one, h3]
    obtain ⟨q', hq'⟩ : ∃ q', q ||| BitVec.ofNat 64 (decide (r ≠ 0)).toNat = q' := ⟨_, rfl⟩
    rw [hq'] at hq0 ⊢
    have hY : (0 : ℝ) < (yu.toNat : ℝ) := by
      have : 0 < yu.toNat := by omega
      exact_mod_cast this
    have hR : ((xu.toNat * 2 ^ 55 : ℕ) : ℝ) / (yu.toNat : ℝ) = (q.toNat : ℝ) + (r.toNat : ℝ) / (yu.toNat : ℝ) := by
      rw [h1]; push_cast; field_simp
    have hst : Sticky q'.toNat (((xu.toNat * 2 ^ 55 : ℕ) : ℝ) / (yu.toNat : ℝ)) := by
      rw [hR, hq0]
      by_cases c : r = 0
      · rw [decide_eq_false (by simpa using c), c]
        simp only [Bool.toNat_false, Nat.add_zero]
        convert sticky_exact q.toNat using 1
        simp
      · rw [decide_eq_true (by simpa using c)]
        have hn : r.toNat ≠ 0 := fun h0 => c (BitVec.eq_of_toNat_eq h0)
        have p1 : (0 : ℝ) < (r.toNat : ℝ) / (yu.toNat : ℝ) := div_pos (by exact_mod_cast Nat.pos_of_ne_zero hn) hY
        have p2 : (r.toNat : ℝ) / (yu.toNat : ℝ) < 2 := by rw [div_lt_iff₀ hY]; exact_mod_cast h2
        refine ⟨?_, fun he => absurd he (by rw [Nat.even_iff]; show ¬(q.toNat + 1) % 2 = 0; omega)⟩
        rw [abs_lt]
        simp only [Bool.toNat_true]
        push_cast
        constructor <;> linarith
    have hlo : 2 ^ 54 ≤ q.toNat := by
      by_contra hlt
      have h6 : q.toNat + 2 ≤ 2 ^ 54 := by omega
      have h7 : (q.toNat + 2) * yu.toNat ≤ 2 ^ 54 * yu.toNat := Nat.mul_le_mul_right _ h6
      have h8 : xu.toNat * 2 ^ 55 < (q.toNat + 2) * yu.toNat := by rw [h1]; nlinarith
      omega
    have hhi : q.toNat < 2 ^ 56 := h4
    obtain ⟨w, hw, hw2, k1, k2, k3⟩ := halve q' (by omega) (by have := Bool.toNat_le (decide (r ≠ 0)); omega) _ hst
    rw [hw]
    have := pack_spec _ hs ((expo x : ℤ) - (expo y : ℤ) - 55 + (w : ℤ)) (by omega) _ k1 k2 _ k3
    convert this using 1
    rw [val_ne x hz, val_ne y hey, neg_one_pow_mod, ← ex, ← ey]
    have e1 : (2 : ℝ) ^ ((expo x : ℤ) - (expo y : ℤ) - 55 + (w : ℤ)) = (2 : ℝ) ^ ((expo x : ℤ) - 1075) / (2 : ℝ) ^ ((expo y : ℤ) - 1075) / (2 : ℝ) ^ (55 : ℕ) * (2 : ℝ) ^ w := by
      rw [← zpow_natCast, ← zpow_natCast, ← zpow_sub₀ (by norm_num), ← zpow_sub₀ (by norm_num), ← zpow_add₀ (by norm_num)]
      congr 1; push_cast; ring
    rw [e1]
    have hsy : ((-1 : ℝ) ^ sgn y) * ((-1 : ℝ) ^ sgn y) = 1 := by rw [← mul_pow]; norm_num
    have hsy0 : ((-1 : ℝ) ^ sgn y) ≠ 0 := by intro h; rw [h] at hsy; norm_num at hsy
    push_cast
    field_simp
    rw [sq, hsy]
    norm_num

/-- `fpr_inv` is the correctly rounded inverse. -/
theorem C99_inv (x : W) (hx : val x ≠ 0) : Rounded (1 / val x) (inv x) := by
  have h1 : val (4607182418800017408 : W) = 1 := by
    have f : sgn (4607182418800017408 : W) = 0 ∧ expo (4607182418800017408 : W) = 1023 ∧ mant (4607182418800017408 : W) = 0 := by
      unfold sgn expo mant; decide
    rw [val_ne _ (by rw [f.2.1]; norm_num), f.1, f.2.1, f.2.2]
    norm_num
  have := C99_div 4607182418800017408 x hx
  rwa [h1] at this

end Verif.CRef.Fpr
