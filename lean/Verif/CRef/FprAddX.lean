import Verif.CRef.FprConv
import Verif.CRef.FftErr

/-! # Addition of words that `fpr_half` may produce

`fpr_half` of the smallest normal numbers is a word with exponent field 0 and a mantissa (C99_half_false).  `fpr_add` reads it as a number below `2^-1023`; the other operations read it as zero. -/

namespace Verif.CRef.Fpr

/-- The mantissa as `fpr_add` reads it. -/
def mantX (x : W) : ℕ := if expo x = 0 then mant x else 2 ^ 52 + mant x

/-- The number as `fpr_add` reads it. -/
noncomputable def valX (x : W) : ℝ := (-1) ^ sgn x * ((mantX x : ℝ) * (2 : ℝ) ^ ((expo x : ℤ) - 1075))

theorem val_fullX (x : W) : valX x = (-1) ^ sgn x * ((mantX x : ℝ) * (2 : ℝ) ^ ((expo x : ℤ) - 1075)) := rfl

theorem valX_ne (x : W) (h : expo x ≠ 0) : valX x = val x := by
  rw [val_full]; unfold valX mantX fullMant; rw [if_neg h, if_neg h]

theorem valX_close (x : W) : |valX x - val x| ≤ (2 : ℝ) ^ (-1022 : ℤ) := by
  by_cases h : expo x = 0
  · rw [val_eq_zero x h, sub_zero, val_fullX, abs_mul, abs_pow, abs_neg, abs_one, one_pow, one_mul, abs_of_nonneg (by positivity), h]
    have mx := (fields x).2.2.2
    unfold mantX
    rw [if_pos h]
    have m : (mant x : ℝ) ≤ 2 ^ 52 := by
      have : mant x ≤ 2 ^ 52 := by omega
      exact_mod_cast this
    have e : (2 : ℝ) ^ (-1022 : ℤ) = 2 ^ 53 * (2 : ℝ) ^ (((0 : ℕ) : ℤ) - 1075) := by
      rw [← zpow_natCast, ← zpow_add₀ (by norm_num)]; congr 1
    rw [e]
    refine mul_le_mul_of_nonneg_right (m.trans (by norm_num)) (by positivity)
  · rw [valX_ne x h, sub_self, abs_zero]; positivity

theorem mant8_toNatX (x : W) : (mant8 x (expo x)).toNat = 8 * mantX x := by
  unfold mant8 mantX
  simp only
  have mx := (fields x).2.2.2
  have fx := (fields x).2.2.1
  by_cases c : expo x = 0
  · have e1 : (expo x + 0x7FF) >>> 11 = 0 := by rw [c]; rfl
    rw [e1, if_pos c]
    have e2 : ((x &&& ((1#64 <<< 52) - 1#64)) ||| ((BitVec.ofNat 64 0) <<< 52)).toNat = mant x := by
      rw [BitVec.toNat_or, toNat_mask52, show ((BitVec.ofNat 64 0) <<< 52).toNat = 0 from rfl, Nat.or_zero]
    rw [toNat_shl _ _ (by rw [e2]; omega), e2]; ring
  · have e1 : (expo x + 0x7FF) >>> 11 = 1 := by rw [Nat.shiftRight_eq_div_pow]; omega
    rw [e1, if_neg c]
    have e2 : ((x &&& ((1#64 <<< 52) - 1#64)) ||| ((BitVec.ofNat 64 1) <<< 52)).toNat = 2 ^ 52 + mant x := toNat_full x
    rw [toNat_shl _ _ (by rw [e2]; omega), e2]; ring

theorem tail_specX (x y : W) (hx : expo x ≠ 2047) (h : y.toNat % 2 ^ 63 ≤ x.toNat % 2 ^ 63) :
    Rounded (valX x + valX y) (addTail x y) := by
  obtain ⟨ex1, sx, fx, mx⟩ := fields x
  obtain ⟨ey1, sy, fy, my⟩ := fields y
  have hee : expo y ≤ expo x := by omega
  have hem : expo y = expo x → mant y ≤ mant x := by omega
  unfold addTail
  simp only
  have hxu := mant8_toNatX x
  have hyu := mant8_toNatX y
  obtain ⟨xu, hxu'⟩ : ∃ a, mant8 x (expo x) = a := ⟨_, rfl⟩
  obtain ⟨yu, hyu'⟩ : ∃ a, mant8 y (expo y) = a := ⟨_, rfl⟩
  rw [hxu'] at hxu ⊢
  rw [hyu'] at hyu ⊢
  obtain ⟨cc, hcc⟩ : ∃ c, expo x - expo y = c := ⟨_, rfl⟩
  rw [hcc]
  have hFx : mantX x < 2 ^ 53 := by unfold mantX; split <;> omega
  have hFy : mantX y < 2 ^ 53 := by unfold mantX; split <;> omega
  -- the exact sum, in units of the larger operand
  have hsum : valX x + valX y = (-1) ^ sgn x * (((xu.toNat : ℝ) + (-1) ^ ((sgn x + sgn y) % 2) * ((yu.toNat : ℝ) / (2 : ℝ) ^ cc)) * (2 : ℝ) ^ ((expo x : ℤ) - 1078)) := by
    rw [val_fullX x, val_fullX y, neg_one_pow_mod, hxu, hyu]
    have e1 : (2 : ℝ) ^ ((expo x : ℤ) - 1075) = 8 * (2 : ℝ) ^ ((expo x : ℤ) - 1078) := by
      rw [show (8 : ℝ) = (2 : ℝ) ^ (3 : ℤ) by norm_num, ← zpow_add₀ (by norm_num)]; congr 1; ring
    have e2 : (2 : ℝ) ^ ((expo y : ℤ) - 1075) = 8 * ((2 : ℝ) ^ ((expo x : ℤ) - 1078) / (2 : ℝ) ^ cc) := by
      rw [← zpow_natCast, ← zpow_sub₀ (by norm_num), show (8 : ℝ) = (2 : ℝ) ^ (3 : ℤ) by norm_num, ← zpow_add₀ (by norm_num)]; congr 1
      omega
    rw [e1, e2]
    have := sign_eq (sgn x)
    push_cast
    linear_combination (-(((-1 : ℝ)) ^ sgn y * (8 * (mantX y : ℝ) * ((2 : ℝ) ^ ((expo x : ℤ) - 1078) / (2 : ℝ) ^ cc)))) * this
  by_cases far : 60 ≤ cc
  · -- the smaller operand is dropped
    have hex0 : expo x ≠ 0 := by omega
    have hF0 : mantX x = 2 ^ 52 + mant x := by unfold mantX; rw [if_neg hex0]
    rw [addShift_far yu cc far (by omega)]
    have hz : xu + ((0 : W) - (((0 : W) <<< 1) &&& -(BitVec.ofNat 64 (sgn x ^^^ sgn y)))) = xu := by simp
    rw [hz]
    have hne : xu ≠ 0 := by intro h0; rw [h0] at hxu; simp at hxu; omega
    obtain ⟨m, e', hn, hr⟩ := normPack (sgn x) sx xu ((expo x : ℤ) - 1078) (by omega) hne xu.toNat (sticky_exact _) (fun _ => rfl)
    have hbd := norm64_exp xu ((expo x : ℤ) - 1078)
    rw [hn] at hbd ⊢
    simp only at hbd ⊢
    have hR := hr 9 (by omega)
    have hvx : (-1) ^ sgn x * ((xu.toNat : ℝ) * (2 : ℝ) ^ ((expo x : ℤ) - 1078 + 9 - 9)) = valX x := by
      rw [val_fullX x, hxu, show (expo x : ℤ) - 1078 + 9 - 9 = ((expo x : ℤ) - 1075) - 3 by ring, zpow_sub₀ (by norm_num)]
      push_cast
      norm_num
      ring
    rw [hvx] at hR
    have hvv := valX_ne x hex0
    have hge := val_ge x hex0
    rw [← hvv] at hge
    have hbig : (2 : ℝ) ^ (-963 : ℤ) ≤ |valX x| := le_trans (zpow_le_zpow_right₀ (by norm_num) (by omega)) hge
    have hlow : (2 : ℝ) ^ (-1022 : ℤ) ≤ |valX x| := le_trans (zpow_le_zpow_right₀ (by norm_num) (by omega)) hge
    obtain ⟨o1, o2⟩ := hR.2 hlow (by rw [hvv]; exact val_lt x ⟨hx, fun h => absurd h hex0⟩)
    rw [hvv, rnd_val, ← hvv] at o2
    obtain ⟨δ, hδ⟩ : ∃ δ, (-1 : ℝ) ^ ((sgn x + sgn y) % 2) * ((yu.toNat : ℝ) / (2 : ℝ) ^ cc) = δ := ⟨_, rfl⟩
    have hδ2 : |δ| < 1 / 16 := by
      rw [← hδ, abs_mul, abs_pow, abs_neg, abs_one, one_pow, one_mul, abs_of_nonneg (by positivity), div_lt_iff₀ (by positivity)]
      have a1 : (yu.toNat : ℝ) < 2 ^ 56 := by
        have : yu.toNat < 2 ^ 56 := by omega
        exact_mod_cast this
      have a2 : (2 : ℝ) ^ 60 ≤ (2 : ℝ) ^ cc := pow_le_pow_right₀ (by norm_num) far
      have a3 : (2 : ℝ) ^ 60 = 16 * 2 ^ 56 := by norm_num
      linarith
    rw [hδ] at hsum
    have hsum2 : valX x + valX y = (-1) ^ sgn x * (((mantX x : ℝ) + δ / 8) * (2 : ℝ) ^ ((expo x : ℤ) - 1075)) := by
      rw [hsum, hxu, show (expo x : ℤ) - 1078 = ((expo x : ℤ) - 1075) - 3 by ring, zpow_sub₀ (by norm_num)]
      push_cast
      norm_num
      ring
    have hrnd : rnd (valX x + valX y) = valX x := by
      rw [hsum2, rnd_sign, rnd_near (mantX x) (by omega) hFx _ _ (by rw [abs_div]; norm_num; linarith), ← val_fullX]
    have hnear : (2 : ℝ) ^ (-1022 : ℤ) ≤ |valX x + valX y| := by
      rw [hsum2, abs_mul, abs_pow, abs_neg, abs_one, one_pow, one_mul, abs_mul, abs_of_pos (show (0 : ℝ) < (2 : ℝ) ^ ((expo x : ℤ) - 1075) by positivity)]
      have a1 : (1 : ℝ) ≤ |(mantX x : ℝ) + δ / 8| := by
        rw [abs_lt] at hδ2
        have : (2 : ℝ) ^ 52 ≤ (mantX x : ℝ) := by
          have : 2 ^ 52 ≤ mantX x := by omega
          exact_mod_cast this
        rw [le_abs]; left; linarith
      have a2 : (2 : ℝ) ^ (-1022 : ℤ) ≤ (2 : ℝ) ^ ((expo x : ℤ) - 1075) := zpow_le_zpow_right₀ (by norm_num) (by omega)
      nlinarith [show (0 : ℝ) < (2 : ℝ) ^ ((expo x : ℤ) - 1075) by positivity]
    exact ⟨fun hc => absurd hc (not_lt.2 hnear), fun _ _ => ⟨o1, by rw [hrnd, o2]⟩⟩
  · push Not at far
    have hyu56 : yu.toNat < 2 ^ 56 := by omega
    have hys := addShift_near yu hyu56 cc far
    obtain ⟨ys, hys'⟩ : ∃ a, addShift yu cc = a := ⟨_, rfl⟩
    rw [hys'] at hys ⊢
    have hst : Sticky ys.toNat ((yu.toNat : ℝ) / (2 : ℝ) ^ cc) := by
      have := sticky_div yu.toNat (2 ^ cc) (by positivity)
      rw [← hys] at this
      exact_mod_cast this
    have hcexp : cc ≠ 0 → expo x ≠ 0 := by omega
    have hq0 : cc = 0 → ys.toNat = yu.toNat := by
      intro h0; rw [hys, h0, pow_zero, Nat.div_one, Nat.mod_one, if_pos rfl, Nat.or_zero]
    have hF : expo x ≠ 0 → mantX x = 2 ^ 52 + mant x := fun hh => by unfold mantX; rw [if_neg hh]
    have hys1 : 1 ≤ cc → ys.toNat < 2 ^ 55 := by
      intro h1
      rw [hys]
      have : yu.toNat / 2 ^ cc ≤ yu.toNat / 2 ^ 1 := Nat.div_le_div_left (Nat.pow_le_pow_right (by norm_num) h1) (by norm_num)
      exact Nat.or_lt_two_pow (by omega) (by split <;> norm_num)
    have hys2 : 2 ≤ cc → ys.toNat < 2 ^ 54 := by
      intro h1
      rw [hys]
      have : yu.toNat / 2 ^ cc ≤ yu.toNat / 2 ^ 2 := Nat.div_le_div_left (Nat.pow_le_pow_right (by norm_num) h1) (by norm_num)
      exact Nat.or_lt_two_pow (by omega) (by split <;> norm_num)
    have hle : ys.toNat ≤ xu.toNat := by
      by_cases c0 : cc = 0
      · rw [hq0 c0, hxu, hyu]
        have hee' : expo y = expo x := by omega
        have := hem hee'
        unfold mantX
        rw [hee']
        split <;> omega
      · have := hys1 (by omega)
        have := hF (hcexp c0)
        omega
    have hZ := addComb xu ys (sgn x) (sgn y) sx sy (by omega) hle
    obtain ⟨Z, hZ'⟩ : ∃ Z, xu + (ys - ((ys <<< 1) &&& -(BitVec.ofNat 64 (sgn x ^^^ sgn y)))) = Z := ⟨_, rfl⟩
    rw [hZ'] at hZ ⊢
    -- the integer result stands for the exact sum
    obtain ⟨R, hR⟩ : ∃ R, (xu.toNat : ℝ) + (-1) ^ ((sgn x + sgn y) % 2) * ((yu.toNat : ℝ) / (2 : ℝ) ^ cc) = R := ⟨_, rfl⟩
    rw [hR] at hsum
    have hsgn : ((-1 : ℝ)) ^ ((sgn x + sgn y) % 2) = if sgn x = sgn y then 1 else -1 := by
      by_cases c : sgn x = sgn y
      · rw [if_pos c, c, show (sgn y + sgn y) % 2 = 0 by omega, pow_zero]
      · rw [if_neg c, show (sgn x + sgn y) % 2 = 1 by omega, pow_one]
    have hstZ : Sticky Z.toNat R := by
      obtain ⟨s1, s2⟩ := hst
      rw [← hR, hsgn, hZ]
      by_cases c : sgn x = sgn y
      · rw [if_pos c, if_pos c]
        refine ⟨?_, fun he => ?_⟩
        · push_cast
          rw [show (xu.toNat : ℝ) + 1 * ((yu.toNat : ℝ) / 2 ^ cc) - (xu.toNat + ys.toNat) = (yu.toNat : ℝ) / 2 ^ cc - ys.toNat by ring]
          exact s1
        · rw [s2 (by rw [Nat.even_iff] at he ⊢; omega)]; push_cast; ring
      · rw [if_neg c, if_neg c]
        refine ⟨?_, fun he => ?_⟩
        · rw [Nat.cast_sub hle, show (xu.toNat : ℝ) + -1 * ((yu.toNat : ℝ) / 2 ^ cc) - (xu.toNat - ys.toNat) = -((yu.toNat : ℝ) / 2 ^ cc - ys.toNat) by ring, abs_neg]
          exact s1
        · rw [s2 (by rw [Nat.even_iff] at he ⊢; omega), Nat.cast_sub hle]; ring
    have hexact : Z.toNat < 2 ^ 54 → R = Z.toNat := by
      intro hlt
      have hcc1 : cc ≤ 1 := by
        by_contra hc
        have a1 := hys2 (by omega)
        have a2 := hF (hcexp (by omega))
        rw [hZ] at hlt
        split at hlt <;> omega
      have hev : (yu.toNat / 2 ^ cc) * 2 ^ cc = yu.toNat ∧ ys.toNat = yu.toNat / 2 ^ cc := by
        have : cc = 0 ∨ cc = 1 := by omega
        rcases this with rfl | rfl
        · simpa using hq0 rfl
        · constructor
          · omega
          · rw [hys, if_pos (by omega), Nat.or_zero]
      have hys3 : (yu.toNat : ℝ) / (2 : ℝ) ^ cc = ys.toNat := by
        rw [hev.2, div_eq_iff (by positivity)]
        exact_mod_cast hev.1.symm
      rw [← hR, hsgn, hZ, hys3]
      by_cases c : sgn x = sgn y
      · rw [if_pos c, if_pos c]; push_cast; ring
      · rw [if_neg c, if_neg c, Nat.cast_sub hle]; ring
    by_cases hz0 : Z = 0
    · have hR0 : R = 0 := by rw [hexact (by rw [hz0]; show 0 < _; norm_num), hz0]; simp
      have hv0 : valX x + valX y = 0 := by rw [hsum, hR0]; simp
      have hbd := norm64_exp Z ((expo x : ℤ) - 1078)
      have hm0 := norm64_zero ((expo x : ℤ) - 1078)
      rw [hz0] at hbd ⊢
      obtain ⟨⟨m, e'⟩, hp⟩ : ∃ p, norm64 0 ((expo x : ℤ) - 1078) = p := ⟨_, rfl⟩
      rw [hp] at hbd hm0 ⊢
      simp only at hbd hm0 ⊢
      rw [hm0, show sticky9 0 = 0 by decide]
      obtain ⟨z1, z2, z3⟩ := ok_zero _ _ (pack_zero (sgn x) sx (e' + 9) 0 (.inl rfl))
      rw [hv0]
      refine ⟨fun _ => ⟨z1, z2⟩, fun h => ?_⟩
      rw [abs_zero] at h
      exact absurd h (not_le.2 (by positivity))
    · obtain ⟨m, e', hn, hr⟩ := normPack (sgn x) sx Z ((expo x : ℤ) - 1078) (by omega) hz0 R hstZ hexact
      have hbd := norm64_exp Z ((expo x : ℤ) - 1078)
      rw [hn] at hbd ⊢
      simp only at hbd ⊢
      have := hr 9 (by omega)
      rw [show (expo x : ℤ) - 1078 + 9 - 9 = (expo x : ℤ) - 1078 by ring, ← hsum] at this
      exact this

theorem addX (x y : W) (hx : expo x ≠ 2047) (hy : expo y ≠ 2047) : Rounded (valX x + valX y) (add x y) := by
  obtain ⟨x', y', h, hc, hle, _⟩ := addSwap_spec x y
  rw [add_eq_tail x y x' y' h]
  rcases hc with ⟨rfl, rfl⟩ | ⟨rfl, rfl⟩
  · exact tail_specX _ _ hx hle
  · rw [add_comm]
    exact tail_specX _ _ hy hle

open Verif.CRef.Fft in
/-- Addition with operands of exponent field 0. -/
theorem add_weak (x y : W) (hx : expo x ≠ 2047) (hy : expo y ≠ 2047) (b : |val x| + |val y| ≤ big) : Ok (add x y) ∧ |val (add x y) - (val x + val y)| ≤ uu * |val x + val y| + 4 * eta := by
  have cx := valX_close x
  have cy := valX_close y
  have e0 := eta_pos
  have u0 := uu_pos
  have u1 : uu ≤ 1 / 4 := by unfold uu; norm_num
  have e1 : eta ≤ 1 / 4 := eta_small.trans u1
  have B := big_huge
  have p1 := one_le_big
  change _ ≤ eta at cx
  change _ ≤ eta at cy
  have d : |valX x + valX y - (val x + val y)| ≤ 2 * eta := by
    rw [show valX x + valX y - (val x + val y) = (valX x - val x) + (valX y - val y) by ring]
    exact (abs_add_le _ _).trans (by linarith)
  have s : |valX x + valX y| ≤ |val x + val y| + 2 * eta := by
    have := abs_add_le (valX x + valX y - (val x + val y)) (val x + val y)
    rw [sub_add_cancel] at this; linarith
  have t := abs_add_le (val x) (val y)
  obtain ⟨o, c⟩ := rounded_close _ _ (addX x y hx hy) (by linarith)
  refine ⟨o, ?_⟩
  have t2 := abs_add_le (val (add x y) - (valX x + valX y)) (valX x + valX y - (val x + val y))
  rw [sub_add_sub_cancel] at t2
  have m := mul_le_mul_of_nonneg_left s u0.le
  have m2 : uu * eta ≤ 1 / 4 * eta := mul_le_mul_of_nonneg_right u1 e0.le
  linarith

open Verif.CRef.Fft in
/-- Subtraction with operands of exponent field 0. -/
theorem sub_weak (x y : W) (hx : expo x ≠ 2047) (hy : expo y ≠ 2047) (b : |val x| + |val y| ≤ big) : Ok (sub x y) ∧ |val (sub x y) - (val x - val y)| ≤ uu * |val x - val y| + 4 * eta := by
  have h := add_weak x (neg y) hx (by rw [(neg_fields y).2.1]; exact hy) (by rw [(C99_neg y).1, abs_neg]; exact b)
  rw [(C99_neg y).1, ← sub_eq_add_neg] at h
  exact h

open Verif.CRef.Fft in
/-- Halving, with an exponent field 0 for the smallest numbers. -/
theorem half_weak (x : W) (hx : Ok x) : expo (half x) ≠ 2047 ∧ |val (half x) - val x / 2| ≤ eta := by
  by_cases h : val x = 0 ∨ (2 : ℝ) ^ (-1021 : ℤ) ≤ |val x|
  · obtain ⟨o, e⟩ := C99_half x hx h
    rw [e, sub_self, abs_zero]
    exact ⟨o.1, eta_pos.le⟩
  · push Not at h
    have he : expo x ≠ 0 := fun hh => h.1 (val_eq_zero x hh)
    have hg := val_ge x he
    have h1 : expo x = 1 := by
      by_contra hn
      have : (2 : ℝ) ^ (-1021 : ℤ) ≤ (2 : ℝ) ^ ((expo x : ℤ) - 1023) := zpow_le_zpow_right₀ (by norm_num) (by omega)
      linarith [h.2]
    obtain ⟨f1, f2, f3, f4⟩ := fields x
    have hs : (x - (1#64 <<< 52)).toNat = sgn x * 2 ^ 63 + mant x := by
      rw [BitVec.toNat_sub, f1, h1]
      have : (1#64 <<< 52).toNat = 2 ^ 52 := by decide
      rw [this]
      omega
    have hh : half x = x - (1#64 <<< 52) := by
      unfold half
      simp only
      have e1 : ((x - (1#64 <<< 52)) >>> 52).setWidth 32 &&& 0x7FF#32 = 0#32 := by
        apply BitVec.eq_of_toNat_eq
        rw [BitVec.toNat_and, BitVec.toNat_setWidth, toNat_shr, hs, show (0x7FF#32).toNat = 2 ^ 11 - 1 from rfl, Nat.and_two_pow_sub_one_eq_mod]
        show _ = 0
        omega
      rw [e1, show ((0#32 + 1#32) >>> 11 : BitVec 32).setWidth 64 - 1#64 = BitVec.allOnes 64 by decide, BitVec.and_allOnes]
    have ex : expo (half x) = 0 := by rw [hh]; unfold expo; rw [hs]; omega
    rw [val_eq_zero _ ex, ex, zero_sub, abs_neg, abs_div, abs_two]
    refine ⟨by norm_num, ?_⟩
    have e : (2 : ℝ) ^ (-1021 : ℤ) = 2 * eta := by unfold eta; rw [← zpow_one_add₀ (by norm_num)]; congr 1
    rw [e] at h
    linarith [h.2]

end Verif.CRef.Fpr
