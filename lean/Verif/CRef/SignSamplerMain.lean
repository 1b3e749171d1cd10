import Verif.CRef.SignSamplerTrial

/-! # C98: the theorem about `sampler` -/

namespace Verif.CRef.SignSampler
open Verif.CRef Verif.CRef.Fpr Verif.CRef.Prng

theorem exponent_words (z0 b : ℕ) (hz0 : z0 ≤ 18) (hb : b < 2) (r dss : W) (hr : Ok r) (r0 : 0 ≤ val r) (r1 : val r ≤ 1) (ρ : ℝ) (p0 : 0 ≤ ρ) (p1 : ρ ≤ 1) (hrp : |val r - ρ| ≤ 2 / 2 ^ 53)
    (I : ℝ) (hV : val inv2sqrsigma0 ≤ val dss) (hV1 : val dss ≤ 1 / 2) (hVI : |val dss - I ^ 2 / 2| ≤ 1 / 2 ^ 53) (hI0 : 0 ≤ I) (hI1 : I ≤ 1) :
    Ok (exponent (candidate z0 b) z0 r dss) ∧ 0 ≤ val (exponent (candidate z0 b) z0 r dss) ∧ val (exponent (candidate z0 b) z0 r dss) ≤ 181 ∧
      |val (exponent (candidate z0 b) z0 r dss) - (((candidate z0 b : ℝ) - ρ) ^ 2 * I ^ 2 / 2 - z0 ^ 2 / (2 * 1.8205 ^ 2))| ≤ 2000 / 2 ^ 53 := by
  obtain ⟨a0, a1, ac⟩ := candidate_abs z0 b hb (val r) r0 r1
  obtain ⟨b0, b1, bc⟩ := candidate_abs z0 b hb ρ p0 p1
  have hc : |candidate z0 b| < 2 ^ 53 := by unfold candidate; split <;> rw [abs_lt] <;> constructor <;> omega
  have hz18 : (z0 : ℝ) ≤ 18 := by exact_mod_cast hz0
  have hzn : (0 : ℝ) ≤ z0 := Nat.cast_nonneg _
  have haa : |abs ((candidate z0 b : ℝ) - val r) - abs ((candidate z0 b : ℝ) - ρ)| ≤ 2 / 2 ^ 53 := by
    refine (abs_abs_sub_abs_le _ _).trans ?_
    rw [show (candidate z0 b : ℝ) - val r - ((candidate z0 b : ℝ) - ρ) = -(val r - ρ) by ring, abs_neg]
    exact hrp
  obtain ⟨x0, x1, y0, y1, w0, w1, q1, q0, d1, d0, xe⟩ := exponent_real z0 hz0 _ _ I a0 a1 b0 b1 haa (val dss) hV hV1 hVI hI0 hI1
  unfold exponent sqr
  obtain ⟨o1, v1⟩ := val_ofInt (candidate z0 b) hc
  have hs1 := C99_sub (ofInt (candidate z0 b)) r o1 hr
  rw [v1] at hs1
  obtain ⟨o2, v2⟩ := rounded_fl _ _ hs1 (big_of _ (by norm_num; linarith))
  generalize sub (ofInt (candidate z0 b)) r = d at *
  have hsq : val d * val d = fl |(candidate z0 b : ℝ) - val r| ^ 2 := by rw [v2, ← sq, ← sq_abs, abs_fl]
  have hm1 := C99_mul d d
  rw [hsq] at hm1
  obtain ⟨o3, v3⟩ := rounded_fl _ _ hm1 (big_of _ (by
    rw [abs_of_nonneg (by positivity)]
    exact (pow_le_pow_left₀ d0 d1 2).trans (by norm_num)))
  generalize mul d d = q at *
  have hm2 := C99_mul q dss
  rw [v3] at hm2
  have hv0 : (0 : ℝ) ≤ val dss := by
    have := val_inv2.1
    norm_num at this; linarith
  obtain ⟨o4, v4⟩ := rounded_fl _ _ hm2 (big_of _ (by
    rw [abs_of_nonneg (mul_nonneg q0 hv0)]
    exact (mul_le_mul q1 hV1 hv0 (by norm_num)).trans (by norm_num)))
  generalize mul q dss = y at *
  have hzz : |((z0 : ℤ) * z0)| < 2 ^ 53 := by
    have : z0 * z0 ≤ 18 * 18 := Nat.mul_le_mul hz0 hz0
    have : ((z0 * z0 : ℕ) : ℤ) ≤ 324 := by exact_mod_cast this
    push_cast at this
    rw [abs_of_nonneg (by positivity)]; omega
  obtain ⟨o5, v5⟩ := val_ofInt ((z0 : ℤ) * z0) hzz
  push_cast at v5
  have hm3 := C99_mul (ofInt ((z0 : ℤ) * z0)) inv2sqrsigma0
  rw [v5] at hm3
  have hK := val_inv2
  have hK0 : (0 : ℝ) ≤ val inv2sqrsigma0 := by have := hK.1; norm_num at this; linarith
  obtain ⟨o6, v6⟩ := rounded_fl _ _ hm3 (big_of _ (by
    rw [abs_of_nonneg (mul_nonneg (mul_nonneg hzn hzn) hK0)]
    have h1 := mul_le_mul hz18 hz18 hzn (by norm_num)
    have := mul_le_mul h1 hK.2.1 hK0 (by norm_num)
    refine this.trans (by norm_num)))
  generalize mul (ofInt ((z0 : ℤ) * z0)) inv2sqrsigma0 = w at *
  have hs2 := C99_sub y w o4 o6
  rw [v4, v6] at hs2
  obtain ⟨o7, v7⟩ := rounded_fl _ _ hs2 (big_of _ (by
    rw [abs_le]; norm_num; constructor <;> linarith))
  rw [v7]
  rw [sq_abs] at xe
  exact ⟨o7, x0, x1, xe⟩

/-- The scaling and the variance factor. -/
theorem factors (sigmaMin isigma : W) (h0 : 0 ≤ val isigma) (h1 : val isigma ≤ 1) (h2 : 2 * val inv2sqrsigma0 ≤ val isigma ^ 2)
    (c0 : 1 / 2 ≤ val isigma * val sigmaMin) (c1 : val isigma * val sigmaMin ≤ 1 - 1 / 2 ^ 53) :
    val inv2sqrsigma0 ≤ val (half (sqr isigma)) ∧ val (half (sqr isigma)) ≤ 1 / 2 ∧ |val (half (sqr isigma)) - val isigma ^ 2 / 2| ≤ 1 / 2 ^ 53 ∧
      1 / 2 ≤ val (mul isigma sigmaMin) ∧ val (mul isigma sigmaMin) < 1 ∧ |val (mul isigma sigmaMin) - val isigma * val sigmaMin| ≤ 2 / 2 ^ 53 := by
  have t := tiny
  obtain ⟨k1, k2, -⟩ := val_inv2
  have hI2 : val isigma ^ 2 ≤ 1 := pow_le_one₀ h0 h1
  have hm := C99_mul isigma isigma
  rw [← sq] at hm
  obtain ⟨o1, v1⟩ := rounded_fl _ _ hm (big_of _ (by rw [abs_of_nonneg (by positivity)]; exact hI2.trans (by norm_num)))
  have i2k : Is53 (2 * val inv2sqrsigma0) := by
    have := is53_scale _ (is53_val inv2sqrsigma0) 1
    rwa [zpow_one, mul_comm] at this
  have f1 := le_fl _ _ i2k (by right; refine t.trans (le_trans (b := (0.3 : ℝ)) (by norm_num) (by norm_num at k1 ⊢; linarith))) h2
  have i1 : Is53 (1 : ℝ) := by have := (near 1 (by norm_num)).1; rwa [Nat.cast_one] at this
  have f2 := fl_le _ _ (by positivity) hI2 i1
  have fe := fl_err (val isigma ^ 2)
  rw [abs_of_nonneg (show (0 : ℝ) ≤ val isigma ^ 2 by positivity)] at fe
  have hh := C99_half (mul isigma isigma) o1 (by
    right
    rw [v1, abs_of_nonneg (by norm_num at k1; linarith)]
    refine le_trans (b := (0.3 : ℝ)) ?_ (by norm_num at k1 ⊢; linarith)
    refine le_trans (b := (2 : ℝ) ^ (-2 : ℤ)) (zpow_le_zpow_right₀ (by norm_num) (by norm_num)) (by norm_num))
  have e : val (half (sqr isigma)) = fl (val isigma ^ 2) / 2 := by rw [← v1]; exact hh.2
  rw [e]
  have hm2 := C99_mul isigma sigmaMin
  obtain ⟨-, v2⟩ := rounded_fl _ _ hm2 (big_of _ (by rw [abs_of_nonneg (by linarith)]; refine c1.trans (by norm_num)))
  rw [v2]
  have ih : Is53 (1 / 2 : ℝ) := ⟨1, -1, by norm_num, by norm_num⟩
  have il : Is53 (1 - 1 / 2 ^ 53 : ℝ) := ⟨2 ^ 53 - 1, -53, by rw [abs_of_nonneg (by norm_num)]; norm_num, by norm_num⟩
  have g1 := le_fl _ _ ih (by right; exact t.trans (by norm_num)) c0
  have g2 := fl_le _ _ (by linarith) c1 il
  have ge := fl_err (val isigma * val sigmaMin)
  rw [abs_of_nonneg (show 0 ≤ val isigma * val sigmaMin by linarith)] at ge
  generalize (2 : ℝ) ^ (-1022 : ℤ) = ε at *
  refine ⟨by linarith, by linarith, ?_, g1, by norm_num at g2 ⊢; linarith, ?_⟩
  · rw [abs_le] at fe ⊢
    norm_num at fe t ⊢
    constructor <;> linarith [fe.1, fe.2]
  · refine ge.trans ?_
    norm_num at c1 t ⊢
    linarith

theorem cand_eq (v z0 : ℕ) : ((v % 2 : ℕ) : ℤ) + (2 * ((v % 2 : ℕ) : ℤ) - 1) * z0 = candidate z0 (v % 2) := by
  unfold candidate
  have : v % 2 = 0 ∨ v % 2 = 1 := by omega
  rcases this with h | h
  · rw [h, if_pos rfl]; push_cast; ring
  · rw [h, if_neg (by norm_num)]; push_cast; ring

theorem loop_step (m : ℤ) (r dss ccs : W) (fuel : ℕ) (p : Prng) (lo hi v z0 : ℕ) (q q2 q3 q4 : Prng) (x : W) (ok : Bool) (h1 : getU64 p = (lo, q)) (h2 : getU8 q = (hi, q2)) (h3 : getU8 q2 = (v, q3))
    (h0 : gaussian0Of lo hi = z0) (hx : exponent (candidate z0 (v % 2)) z0 r dss = x) (h4 : berExp q3 x ccs = (ok, q4)) :
    sampleLoop m r dss ccs (fuel + 1) p = if ok then some (m + candidate z0 (v % 2), q4) else sampleLoop m r dss ccs fuel q4 := by
  have hg : gaussian0 p = (z0, q2) := by rw [gaussian0, h1, h2, h0]
  rw [sampleLoop, hg, h3, cand_eq, hx, h4]

theorem trials_step (m : ℤ) (T : ℕ → ℕ → ℕ) (fuel : ℕ) (p : Prng) (lo hi v z0 t : ℕ) (q q2 q3 q4 : Prng) (ok : Bool) (h1 : getU64 p = (lo, q)) (h2 : getU8 q = (hi, q2)) (h3 : getU8 q2 = (v, q3))
    (h0 : Sampler.baseOf (lo + 2 ^ 64 * hi) = z0) (hx : T z0 (v % 2) = t) (h4 : lazyLess t 8 q3 = (ok, q4)) :
    trials m T (fuel + 1) p = if ok then some (m + candidate z0 (v % 2), q4) else trials m T fuel q4 := by
  rw [trials, h1, h2, h3, h0, hx, h4]

theorem sampleLoop_trials (m : ℤ) (r dss ccs : W) (T : ℕ → ℕ → ℕ) (hT : ∀ z0 b, T z0 b = (threshold (exponent (candidate z0 b) z0 r dss) ccs).toNat) (fuel : ℕ) (p : Prng) (hp : Live p) :
    sampleLoop m r dss ccs fuel p = trials m T fuel p := by
  induction fuel generalizing p with
  | zero => rfl
  | succ fuel ih =>
    obtain ⟨l1, l2⟩ := getU64_live p hp
    obtain ⟨lo, q, e1⟩ : ∃ a b, getU64 p = (a, b) := ⟨_, _, rfl⟩
    rw [e1] at l1 l2
    obtain ⟨l3, l4⟩ := getU8_live q l2
    obtain ⟨hi, q2, e2⟩ : ∃ a b, getU8 q = (a, b) := ⟨_, _, rfl⟩
    rw [e2] at l3 l4
    obtain ⟨l5, l6⟩ := getU8_live q2 l4
    obtain ⟨v, q3, e3⟩ : ∃ a b, getU8 q2 = (a, b) := ⟨_, _, rfl⟩
    rw [e3] at l5 l6
    obtain ⟨z0, e0⟩ : ∃ a, Sampler.baseOf (lo + 2 ^ 64 * hi) = a := ⟨_, rfl⟩
    have eg := C98_gaussian0 lo hi l1 l3
    rw [e0] at eg
    obtain ⟨x, hx⟩ : ∃ x, exponent (candidate z0 (v % 2)) z0 r dss = x := ⟨_, rfl⟩
    have ht := hT z0 (v % 2)
    rw [hx] at ht
    have hbl := berExp_lazy q3 l6 x ccs
    obtain ⟨t, et⟩ : ∃ t, (threshold x ccs).toNat = t := ⟨_, rfl⟩
    rw [et] at ht hbl
    have hl := lazyLess_live t 8 q3 l6
    obtain ⟨ok, q4, e4⟩ : ∃ a b, lazyLess t 8 q3 = (a, b) := ⟨_, _, rfl⟩
    rw [e4] at hl hbl
    rw [loop_step m r dss ccs fuel p lo hi v z0 q q2 q3 q4 x ok e1 e2 e3 eg hx hbl, trials_step m T fuel p lo hi v z0 t q q2 q3 q4 ok e1 e2 e3 e0 ht e4]
    rw [ih q4 hl]

/-- The errors of the exponent, of the scaling and of the threshold together. -/
theorem error_total (P C S x y : ℝ) (x0 : 0 ≤ x) (hT : |P - C * Real.exp (-x)| ≤ 1 / 2 ^ 49) (ke : |C - S| ≤ 2 / 2 ^ 53) (s0 : 0 ≤ S) (s1 : S ≤ 1) (hxy : |x - y| ≤ 2000 / 2 ^ 53) :
    |P - S * Real.exp (-y)| ≤ 1 / 2 ^ 41 := by
  have hE : Real.exp (-y) = Real.exp (-x) * Real.exp (x - y) := by rw [← Real.exp_add]; congr 1; ring
  have hd := Real.abs_exp_sub_one_le (x := x - y) (hxy.trans (by norm_num))
  have hX : Real.exp (-x) ≤ 1 := by rw [Real.exp_le_one_iff]; linarith
  have hX0 := Real.exp_pos (-x)
  rw [hE]
  generalize Real.exp (-x) = X at *
  generalize Real.exp (x - y) = D at *
  have e : P - S * (X * D) = (P - C * X) + (C - S) * X - S * X * (D - 1) := by ring
  rw [e]
  have b1 : |(C - S) * X| ≤ 2 / 2 ^ 53 * 1 := by
    rw [abs_mul, abs_of_pos hX0]; exact mul_le_mul ke hX hX0.le (by norm_num)
  have b2 : |S * X * (D - 1)| ≤ 1 * (2 * (2000 / 2 ^ 53)) := by
    rw [abs_mul, abs_of_nonneg (mul_nonneg s0 hX0.le)]
    have sx : S * X ≤ 1 * 1 := mul_le_mul s1 hX hX0.le (by norm_num)
    exact mul_le_mul (by linarith) (hd.trans (by linarith)) (abs_nonneg _) (by norm_num)
  rw [abs_le] at hT b1 b2 ⊢
  norm_num at hT b1 b2 ⊢
  constructor <;> linarith [hT.1, hT.2, b1.1, b1.2, b2.1, b2.2]

/-- **C98**: for a centre of magnitude below `2^31`, `sigma` between 1 and 1.8205 and `sigma_min / sigma` in `[1/2, 1)`, `sampler` is rejection sampling around an integer `m` with `mu - m` in `[0, 1]`:
the candidate `m + z` is kept with a probability within `2^-41` of `(sigma_min / sigma) · exp(-((m + z - mu)² / (2 sigma²) - z0² / (2 · 1.8205²)))`, all rounding errors included. -/
theorem C98_sampler (sigmaMin mu isigma : W) (hmu : expo mu ≠ 2047) (hb : |val mu| < 2 ^ 31) (h0 : 0 ≤ val isigma) (h1 : val isigma ≤ 1) (h2 : 2 * val inv2sqrsigma0 ≤ val isigma ^ 2)
    (c0 : 1 / 2 ≤ val isigma * val sigmaMin) (c1 : val isigma * val sigmaMin ≤ 1 - 1 / 2 ^ 53) :
    ∃ (m : ℤ) (T : ℕ → ℕ → ℕ), 0 ≤ val mu - m ∧ val mu - m ≤ 1 ∧
      (∀ z0 b, z0 ≤ 18 → b < 2 → T z0 b < 2 ^ 64 ∧
        |(T z0 b : ℝ) / 2 ^ 64 - val isigma * val sigmaMin * Real.exp (-(((m + candidate z0 b : ℤ) - val mu) ^ 2 * val isigma ^ 2 / 2 - z0 ^ 2 / (2 * 1.8205 ^ 2)))| ≤ 1 / 2 ^ 41) ∧
      ∀ fuel p, Live p → sampler sigmaMin mu isigma fuel p = trials m T fuel p := by
  obtain ⟨m, e1, e2, e3, m0, m1, X0, X1⟩ := center_spec mu hb
  obtain ⟨v0, v1, ve, k0, k1, ke⟩ := factors sigmaMin isigma h0 h1 h2 c0 c1
  obtain ⟨o1, w1⟩ := val_of _ m e2 (lt_of_le_of_lt e3 (by norm_num))
  have hs : Rounded (valX mu - m) (sub mu (of ((center mu).signExtend 64))) := by
    have h := addX mu (neg (of ((center mu).signExtend 64))) hmu (by rw [(neg_fields _).2.1]; exact o1.1)
    rw [valX_ok _ ((C99_neg _).2 o1), (C99_neg _).1, w1, ← sub_eq_add_neg] at h
    exact h
  obtain ⟨o2, w2⟩ := rounded_fl _ _ hs (big_of _ (by rw [abs_of_nonneg X0]; exact X1.trans (by norm_num)))
  have i1 : Is53 (1 : ℝ) := by have := (near 1 (by norm_num)).1; rwa [Nat.cast_one] at this
  have r0 := fl_nonneg _ X0
  have r1 := fl_le _ _ X0 X1 i1
  have re := fl_err (valX mu - m)
  rw [abs_of_nonneg X0] at re
  rw [← w2] at r0 r1 re
  have t := tiny
  have cl := valX_close mu
  have re2 : |val (sub mu (of ((center mu).signExtend 64))) - (val mu - m)| ≤ 2 / 2 ^ 53 := by
    rw [abs_le] at re cl ⊢
    generalize (2 : ℝ) ^ (-1022 : ℤ) = ε at *
    norm_num at t re ⊢
    constructor <;> linarith [re.1, re.2, cl.1, cl.2]
  have hS : ∀ fuel p, sampler sigmaMin mu isigma fuel p = sampleLoop m (sub mu (of ((center mu).signExtend 64))) (half (sqr isigma)) (mul isigma sigmaMin) fuel p := by
    intro fuel p
    rw [← e1]; rfl
  obtain ⟨r, hr⟩ : ∃ r, sub mu (of ((center mu).signExtend 64)) = r := ⟨_, rfl⟩
  obtain ⟨dss, hd⟩ : ∃ d, half (sqr isigma) = d := ⟨_, rfl⟩
  obtain ⟨ccs, hc⟩ : ∃ c, mul isigma sigmaMin = c := ⟨_, rfl⟩
  rw [hr] at o2 r0 r1 re2
  rw [hd] at v0 v1 ve
  rw [hc] at k0 k1 ke
  obtain ⟨T, hT⟩ : ∃ T : ℕ → ℕ → ℕ, ∀ z0 b, T z0 b = (threshold (exponent (candidate z0 b) z0 r dss) ccs).toNat := ⟨_, fun _ _ => rfl⟩
  refine ⟨m, T, m0, m1, ?_, ?_⟩
  · intro z0 b hz hb2
    obtain ⟨x1, x2, x3, x4⟩ := exponent_words z0 b hz hb2 r dss o2 r0 r1 (val mu - m) m0 m1 re2 (val isigma) v0 v1 ve h0 h1
    obtain ⟨x, hx⟩ : ∃ x, exponent (candidate z0 b) z0 r dss = x := ⟨_, rfl⟩
    rw [hx] at x1 x2 x3 x4
    have hth := C98_threshold x ccs x1 x2 (by linarith) k0 k1
    rw [hT, hx]
    refine ⟨BitVec.isLt _, ?_⟩
    rw [show (((m + candidate z0 b : ℤ) : ℝ) - val mu) = (candidate z0 b : ℝ) - (val mu - m) by push_cast; ring]
    refine error_total _ _ _ _ _ x2 hth ke (by linarith) (by norm_num at c1; linarith) x4
  · intro fuel p hp
    rw [hS, hr, hd, hc]
    exact sampleLoop_trials m r dss ccs T hT fuel p hp

/-- The hypotheses are met: degree 512 (`sigma_min` of `fpr.h`), `sigma = 1 / 0.75`, centre `-3.5`. -/
example : ∃ mu isigma : W, expo mu ≠ 2047 ∧ val mu = -3.5 ∧ |val mu| < 2 ^ 31 ∧ 0 ≤ val isigma ∧ val isigma ≤ 1 ∧ 2 * val inv2sqrsigma0 ≤ val isigma ^ 2 ∧
    1 / 2 ≤ val isigma * val 4608433670533905013#64 ∧ val isigma * val 4608433670533905013#64 ≤ 1 - 1 / 2 ^ 53 := by
  have e1 : val 0xC00C000000000000#64 = -3.5 := by
    rw [val_word _ 1 1024 3377699720527872 (fields_dec _ _ _ _ (by decide)) (by norm_num)]; norm_num
  have e2 : val 0x3FE8000000000000#64 = 3 / 4 := by
    rw [val_word _ 0 1022 2251799813685248 (fields_dec _ _ _ _ (by decide)) (by norm_num)]; norm_num
  have e3 : val 4608433670533905013#64 = ((2 ^ 52 + 1251251733887605 : ℕ) : ℝ) * (2 : ℝ) ^ ((1023 : ℤ) - 1075) := by
    rw [val_word _ 0 1023 1251251733887605 (fields_dec _ _ _ _ (by decide)) (by norm_num)]; norm_num
  have k := val_inv2.2.1
  refine ⟨0xC00C000000000000#64, 0x3FE8000000000000#64, by unfold expo; decide, e1, ?_, ?_, ?_, ?_, ?_, ?_⟩
  · rw [e1, abs_lt]; norm_num
  · rw [e2]; norm_num
  · rw [e2]; norm_num
  · rw [e2]; norm_num at k ⊢; linarith
  · rw [e2, e3]; norm_num
  · rw [e2, e3]; norm_num

end Verif.CRef.SignSampler
