import Verif.CRef.SignTreeBy
import Verif.CRef.SignTreeExact

/-! # How accurate the two ways of splitting and merging are -/

namespace Verif.CRef.SignTree

open Verif.CRef.Fpr Verif.CRef.Fft Verif.CRef.Orth Verif.CRef.SignDyn Verif.CRef.SignSampler

/-- Routines for splitting and merging that compute `(a + b) / 2`, `(a - b) / (2 ζ)`, `c + ζ d` and `c - ζ d` up to small errors, `ζ` being the square root `gmE` of the point of the slot, for values up to `2^30` and
`2^31`, and that are the usual ones in degree 2. -/
structure Accurate (split : List W → ℕ → List W × List W) (merge : List W → List W → ℕ → List W) : Prop where
  split1 : ∀ f, split f 1 = polySplitFft f 1
  merge1 : ∀ a b, merge a b 1 = polyMergeFft a b 1
  split : ∀ s ≤ 8, ∀ t p, p < 2 ^ s → Weak (slot t (2 ^ (s + 1)) (2 * p)) → Weak (slot t (2 ^ (s + 1)) (2 * p + 1)) → ‖cv (slot t (2 ^ (s + 1)) (2 * p))‖ ≤ 2 ^ 30 → ‖cv (slot t (2 ^ (s + 1)) (2 * p + 1))‖ ≤ 2 ^ 30 →
    Weak (slot (split t (s + 2)).1 (2 ^ s) p) ∧ ‖cv (slot (split t (s + 2)).1 (2 ^ s) p) - (cv (slot t (2 ^ (s + 1)) (2 * p)) + cv (slot t (2 ^ (s + 1)) (2 * p + 1))) / 2‖ ≤ 1 / 2 ^ 18 ∧
    Weak (slot (split t (s + 2)).2 (2 ^ s) p) ∧
      ‖cv (slot (split t (s + 2)).2 (2 ^ s) p) - (cv (slot t (2 ^ (s + 1)) (2 * p)) - cv (slot t (2 ^ (s + 1)) (2 * p + 1))) / 2 * (starRingEnd ℂ) (gmE (s + 1) p)‖ ≤ 1 / 2 ^ 18
  merge : ∀ s ≤ 8, ∀ c d p, p < 2 ^ s → Weak (slot c (2 ^ s) p) → Weak (slot d (2 ^ s) p) → ‖cv (slot c (2 ^ s) p)‖ ≤ 2 ^ 31 → ‖cv (slot d (2 ^ s) p)‖ ≤ 2 ^ 31 →
    Weak (slot (merge c d (s + 2)) (2 ^ (s + 1)) (2 * p)) ∧ ‖cv (slot (merge c d (s + 2)) (2 ^ (s + 1)) (2 * p)) - (cv (slot c (2 ^ s) p) + gmE (s + 1) p * cv (slot d (2 ^ s) p))‖ ≤ 1 / 2 ^ 15 ∧
    Weak (slot (merge c d (s + 2)) (2 ^ (s + 1)) (2 * p + 1)) ∧ ‖cv (slot (merge c d (s + 2)) (2 ^ (s + 1)) (2 * p + 1)) - (cv (slot c (2 ^ s) p) - gmE (s + 1) p * cv (slot d (2 ^ s) p))‖ ≤ 1 / 2 ^ 15

/-- One part of a product with a constant. -/
theorem scale_close (x κ : W) (r : ℝ) (h : |val x - r| ≤ uu * |r| + 4 * eta) (hr : |r| ≤ 2 ^ 32 + 2) (hκ : |val κ| ≤ 1) : Ok (mul x κ) ∧ |val (mul x κ) - r * val κ| ≤ 1 / 2 ^ 20 + 1 / 2 ^ 45 := by
  have u0 := uu_pos
  have un := uu_num
  have et : eta ≤ uu * (1 / 2 ^ 100) := eta_tiny
  have m1 : uu * |r| ≤ uu * (2 ^ 32 + 2) := mul_le_mul_of_nonneg_left hr u0.le
  have hg : (2 : ℝ) ^ 60 ≤ huge := by unfold huge; exact pow_le_pow_right₀ (by norm_num) (by norm_num)
  have bx : |val x| ≤ 2 ^ 32 + 3 := by
    have := abs_add_le (val x - r) r
    rw [sub_add_cancel] at this
    rw [un] at m1 h et; norm_num at *; linarith
  have bp : |val x * val κ| ≤ 2 ^ 32 + 3 := by
    rw [abs_mul]; exact (mul_le_of_le_one_right (abs_nonneg _) hκ).trans bx
  obtain ⟨o, c2⟩ := rounded_close _ _ (C99_mul x κ) (by norm_num at *; linarith)
  refine ⟨o, ?_⟩
  have m2 : uu * |val x * val κ| ≤ uu * (2 ^ 32 + 3) := mul_le_mul_of_nonneg_left bp u0.le
  have d : |val x * val κ - r * val κ| ≤ uu * |r| + 4 * eta := by
    rw [← sub_mul, abs_mul]; exact (mul_le_of_le_one_right (abs_nonneg _) hκ).trans h
  have t := abs_add_le (val (mul x κ) - val x * val κ) (val x * val κ - r * val κ)
  rw [sub_add_sub_cancel] at t
  rw [un] at *; norm_num at *; linarith

theorem val_invsqrt8 : val invsqrt8 = val invsqrt2 / 2 := by
  have e : val invsqrt2 = ((2 ^ 52 + 1865452045155277 : ℕ) : ℝ) * (2 : ℝ) ^ ((1022 : ℤ) - 1075) := by
    rw [val_word invsqrt2 0 1022 1865452045155277 (fields_dec _ _ _ _ (by decide)) (by norm_num)]; norm_num
  have e8 : val invsqrt8 = ((2 ^ 52 + 1865452045155277 : ℕ) : ℝ) * (2 : ℝ) ^ ((1021 : ℤ) - 1075) := by
    rw [val_word invsqrt8 0 1021 1865452045155277 (fields_dec _ _ _ _ (by decide)) (by norm_num)]; norm_num
  rw [e, e8]
  norm_num

theorem parts_le (z r : ℂ) (a b ε : ℝ) (hz : z = ⟨a, b⟩) (h1 : |a - r.re| ≤ ε) (h2 : |b - r.im| ≤ ε) : ‖z - r‖ ≤ 2 * ε := by
  refine (norm_le_parts _).trans ?_
  rw [hz]
  have e1 : ((⟨a, b⟩ : ℂ) - r).re = a - r.re := rfl
  have e2 : ((⟨a, b⟩ : ℂ) - r).im = b - r.im := rfl
  rw [e1, e2]; linarith

theorem root8_close : ‖cv (invsqrt2, invsqrt2) - gmE 1 0‖ ≤ 4 * uu := by
  have := (gm_close 1 (by norm_num) 0 (by norm_num)).2
  rwa [gm_two] at this

/-- The unrolled split of four coefficients divides by the eighth root of unity. -/
theorem split4_close (a b : C) (ha : Weak a) (hb : Weak b) (na : ‖cv a‖ ≤ 2 ^ 30) (nb : ‖cv b‖ ≤ 2 ^ 30) :
    (split4 a b).1 = hv (cAdd a b) ∧ Weak (split4 a b).2 ∧ ‖cv (split4 a b).2 - (cv a - cv b) / 2 * (starRingEnd ℂ) (gmE 1 0)‖ ≤ 1 / 2 ^ 18 := by
  refine ⟨rfl, ?_⟩
  have u0 := uu_pos
  have un := uu_num
  have et : eta ≤ uu * (1 / 2 ^ 100) := eta_tiny
  have e0 := eta_pos
  have nd : ‖cv a - cv b‖ ≤ 2 ^ 31 := (norm_sub_le _ _).trans (by norm_num at *; linarith)
  obtain ⟨gd, cd⟩ := wSub_close a b ha hb (na.trans (by norm_num)) (nb.trans (by norm_num))
  have e : (split4 a b).2 = (mul (add (cSub a b).1 (cSub a b).2) invsqrt8, mul (sub (cSub a b).2 (cSub a b).1) invsqrt8) := rfl
  rw [e]
  generalize cSub a b = d at *
  generalize cv a - cv b = D at *
  have cd' : ‖cv d - D‖ ≤ 1 / 2 ^ 20 := by
    have := mul_le_mul_of_nonneg_left nd u0.le
    rw [un] at *; norm_num at *; linarith
  have nd' : ‖cv d‖ ≤ 2 ^ 31 + 1 := by
    have := norm_add_le (cv d - D) D
    rw [sub_add_cancel] at this; norm_num at *; linarith
  have r1 := re_le d
  have r2 := im_le d
  have s1 : |val d.1 + val d.2| ≤ 2 ^ 32 + 2 := (abs_add_le _ _).trans (by norm_num at *; linarith)
  have s2 : |val d.2 - val d.1| ≤ 2 ^ 32 + 2 := (abs_sub _ _).trans (by norm_num at *; linarith)
  have hg : (2 : ℝ) ^ 60 ≤ huge := by unfold huge; exact pow_le_pow_right₀ (by norm_num) (by norm_num)
  have k8 : |val invsqrt8| ≤ 1 := by
    rw [val_invsqrt8, abs_div]; have := val_invsqrt2; norm_num at *; linarith
  have A := rounded_close _ _ (C99_add d.1 d.2 gd.1 gd.2) (s1.trans (by norm_num at *; linarith))
  have B := rounded_close _ _ (C99_sub d.2 d.1 gd.2 gd.1) (s2.trans (by norm_num at *; linarith))
  obtain ⟨o1, c1⟩ := scale_close _ invsqrt8 _ (A.2.trans (by linarith)) s1 k8
  obtain ⟨o2, c2⟩ := scale_close _ invsqrt8 _ (B.2.trans (by linarith)) s2 k8
  refine ⟨⟨o1.1, o2.1⟩, ?_⟩
  generalize mul (add d.1 d.2) invsqrt8 = x at *
  generalize mul (sub d.2 d.1) invsqrt8 = y at *
  obtain ⟨G, hG⟩ : ∃ G, (starRingEnd ℂ) (cv (invsqrt2, invsqrt2)) = G := ⟨_, rfl⟩
  have Gc : ‖G - (starRingEnd ℂ) (gmE 1 0)‖ ≤ 4 * uu := by rw [← hG, ← map_sub, RCLike.norm_conj]; exact root8_close
  have P : ‖cv (x, y) - cv d * (G / 2)‖ ≤ 2 * (1 / 2 ^ 20 + 1 / 2 ^ 45) := by
    have ev : cv d * (G / 2) = ⟨(val d.1 + val d.2) * val invsqrt8, (val d.2 - val d.1) * val invsqrt8⟩ := by
      rw [← hG, val_invsqrt8]
      have : ((starRingEnd ℂ) (cv (invsqrt2, invsqrt2)) / 2 : ℂ) = ⟨val invsqrt2 / 2, -(val invsqrt2 / 2)⟩ := by
        rw [show (2 : ℂ) = ((2 : ℝ) : ℂ) by norm_num]
        apply Complex.ext
        · rw [Complex.div_ofReal_re]; rfl
        · rw [Complex.div_ofReal_im]; show -val invsqrt2 / 2 = _; ring
      rw [this]
      apply Complex.ext
      · show val d.1 * (val invsqrt2 / 2) - val d.2 * (-(val invsqrt2 / 2)) = _; ring
      · show val d.1 * (-(val invsqrt2 / 2)) + val d.2 * (val invsqrt2 / 2) = _; ring
    rw [ev]
    exact parts_le _ _ _ _ _ rfl c1 c2
  obtain ⟨S, hS⟩ : ∃ S, (starRingEnd ℂ) (gmE 1 0) = S := ⟨_, rfl⟩
  have nS : ‖S‖ = 1 := by rw [← hS, RCLike.norm_conj, gmE_norm]
  rw [hS] at Gc ⊢
  have e : cv (x, y) - D / 2 * S = (cv (x, y) - cv d * (G / 2)) + (cv d * ((G - S) / 2) + (cv d - D) * (S / 2)) := by ring
  rw [e]
  refine (norm_add_le _ _).trans (add_le_add P (norm_add_le _ _) |>.trans ?_)
  rw [norm_mul, norm_mul, norm_div, norm_div, nS]
  have m1 := mul_le_mul nd' Gc (norm_nonneg _) (by positivity)
  rw [show ‖(2 : ℂ)‖ = 2 by norm_num]
  rw [un] at m1
  have : ‖cv d‖ * (‖G - S‖ / 2) = ‖cv d‖ * ‖G - S‖ / 2 := by ring
  rw [this]
  norm_num at m1 cd' ⊢
  linarith

/-- The unrolled merge of four coefficients multiplies by the eighth root of unity. -/
theorem merge4_close (a b : C) (ha : Weak a) (hb : Weak b) (na : ‖cv a‖ ≤ 2 ^ 31) (nb : ‖cv b‖ ≤ 2 ^ 31) :
    Weak (slot (merge4 a b) 2 0) ∧ ‖cv (slot (merge4 a b) 2 0) - (cv a + gmE 1 0 * cv b)‖ ≤ 1 / 2 ^ 15 ∧ Weak (slot (merge4 a b) 2 1) ∧ ‖cv (slot (merge4 a b) 2 1) - (cv a - gmE 1 0 * cv b)‖ ≤ 1 / 2 ^ 15 := by
  have u0 := uu_pos
  have un := uu_num
  have et : eta ≤ uu * (1 / 2 ^ 100) := eta_tiny
  have e0 := eta_pos
  have r1 := re_le b
  have r2 := im_le b
  have s1 : |val b.1 - val b.2| ≤ 2 ^ 32 + 2 := (abs_sub _ _).trans (by norm_num at *; linarith)
  have s2 : |val b.1 + val b.2| ≤ 2 ^ 32 + 2 := (abs_add_le _ _).trans (by norm_num at *; linarith)
  have big' : |val b.1| + |val b.2| ≤ big := big_le _ (by norm_num at *; linarith)
  obtain ⟨o1, c1⟩ := scale_close _ invsqrt2 _ (sub_weak b.1 b.2 hb.1 hb.2 big').2 s1 val_invsqrt2
  obtain ⟨o2, c2⟩ := scale_close _ invsqrt2 _ (add_weak b.1 b.2 hb.1 hb.2 big').2 s2 val_invsqrt2
  have ex : slot (merge4 a b) 2 0 = cAdd a (mul (sub b.1 b.2) invsqrt2, mul (add b.1 b.2) invsqrt2) := rfl
  have ey : slot (merge4 a b) 2 1 = cSub a (mul (sub b.1 b.2) invsqrt2, mul (add b.1 b.2) invsqrt2) := rfl
  rw [ex, ey]
  have P : ‖cv (mul (sub b.1 b.2) invsqrt2, mul (add b.1 b.2) invsqrt2) - cv b * cv (invsqrt2, invsqrt2)‖ ≤ 2 * (1 / 2 ^ 20 + 1 / 2 ^ 45) := by
    have ev : cv b * cv (invsqrt2, invsqrt2) = ⟨(val b.1 - val b.2) * val invsqrt2, (val b.1 + val b.2) * val invsqrt2⟩ := by
      apply Complex.ext
      · show val b.1 * val invsqrt2 - val b.2 * val invsqrt2 = _; ring
      · show val b.1 * val invsqrt2 + val b.2 * val invsqrt2 = _; ring
    rw [ev]
    exact parts_le _ _ _ _ _ rfl c1 c2
  have gm : Weak (mul (sub b.1 b.2) invsqrt2, mul (add b.1 b.2) invsqrt2) := ⟨o1.1, o2.1⟩
  generalize (mul (sub b.1 b.2) invsqrt2, mul (add b.1 b.2) invsqrt2) = m at *
  have Gc := root8_close
  obtain ⟨S, hS⟩ : ∃ S, gmE 1 0 = S := ⟨_, rfl⟩
  have nS : ‖S‖ = 1 := by rw [← hS, gmE_norm]
  rw [hS] at Gc ⊢
  have cm : ‖cv m - S * cv b‖ ≤ 1 / 2 ^ 17 := by
    have e : cv m - S * cv b = (cv m - cv b * cv (invsqrt2, invsqrt2)) + cv b * (cv (invsqrt2, invsqrt2) - S) := by ring
    rw [e]
    refine (norm_add_le _ _).trans ?_
    rw [norm_mul]
    have m1 := mul_le_mul nb Gc (norm_nonneg _) (by positivity)
    rw [un] at m1; norm_num at m1 P ⊢; linarith
  have nm : ‖cv m‖ ≤ 2 ^ 32 := by
    have := norm_add_le (cv m - S * cv b) (S * cv b)
    rw [sub_add_cancel, norm_mul, nS, one_mul] at this
    norm_num at cm nb ⊢; linarith
  obtain ⟨ga, ca⟩ := wAdd_close a m ha gm (na.trans (by norm_num)) (nm.trans (by norm_num))
  obtain ⟨gb, cb⟩ := wSub_close a m ha gm (na.trans (by norm_num)) (nm.trans (by norm_num))
  have n1 : ‖cv a + cv m‖ ≤ 2 ^ 33 := (norm_add_le _ _).trans (by norm_num at na nm ⊢; linarith)
  have n2 : ‖cv a - cv m‖ ≤ 2 ^ 33 := (norm_sub_le _ _).trans (by norm_num at na nm ⊢; linarith)
  refine ⟨ga.weak, ?_, gb.weak, ?_⟩
  · rw [show cv (cAdd a m) - (cv a + S * cv b) = (cv (cAdd a m) - (cv a + cv m)) + (cv m - S * cv b) by ring]
    have := mul_le_mul_of_nonneg_left n1 u0.le
    refine (norm_add_le _ _).trans ?_
    rw [un] at this ca et; norm_num at this ca et cm ⊢; linarith
  · rw [show cv (cSub a m) - (cv a - S * cv b) = (cv (cSub a m) - (cv a - cv m)) - (cv m - S * cv b) by ring]
    have := mul_le_mul_of_nonneg_left n2 u0.le
    refine (norm_sub_le _ _).trans ?_
    rw [un] at this cb et; norm_num at this cb et cm ⊢; linarith

/-- The routines of `do_sign_dyn`. -/
theorem accurate_dyn : Accurate polySplitFft polyMergeFft where
  split1 := fun _ => rfl
  merge1 := fun _ _ => rfl
  split := fun s hs t p hp w0 w1 n0 n1 => by
    have u0 := uu_pos
    have un := uu_num
    have sp := split_slot _ _ (gmConj (2 ^ (s + 1) + p)) (gmE (s + 1) p) (gmE_norm _ _) (gmConj_close (s + 1) (by omega) p (by rw [pow_succ]; omega)) w0 w1 (n0.trans (by norm_num)) (n1.trans (by norm_num))
    rw [(split_slots s t p hp).1, (split_slots s t p hp).2]
    have a1 := mul_le_mul_of_nonneg_left ((norm_add_le (cv (slot t (2 ^ (s + 1)) (2 * p))) (cv (slot t (2 ^ (s + 1)) (2 * p + 1)))).trans (add_le_add n0 n1)) u0.le
    have a2 := mul_le_mul_of_nonneg_left ((norm_sub_le (cv (slot t (2 ^ (s + 1)) (2 * p))) (cv (slot t (2 ^ (s + 1)) (2 * p + 1)))).trans (add_le_add n0 n1)) u0.le
    refine ⟨sp.1, sp.2.1.trans ?_, sp.2.2.1, sp.2.2.2.trans ?_⟩
    · rw [un] at *; norm_num at *; linarith
    · rw [un] at *; norm_num at *; linarith
  merge := fun s hs c d p hp w0 w1 n0 n1 => by
    have u0 := uu_pos
    have un := uu_num
    have et : eta ≤ uu * (1 / 2 ^ 100) := eta_tiny
    rw [(merge_slots s c d p hp).1, (merge_slots s c d p hp).2]
    have hg := (gm_close (s + 1) (by omega) p (by rw [pow_succ]; omega)).2
    have nS := gmE_norm (s + 1) p
    generalize gmE (s + 1) p = S at *
    generalize gm (2 ^ (s + 1) + p) = g at *
    generalize slot c (2 ^ s) p = z0 at *
    generalize slot d (2 ^ s) p = z1 at *
    have ng2 : ‖cv g‖ ≤ 2 := by
      have := norm_add_le (cv g - S) S
      rw [sub_add_cancel, nS] at this
      rw [un] at hg; norm_num at hg; linarith
    have nzg : ‖cv z1‖ * ‖cv g‖ ≤ 2 ^ 31 * 2 := mul_le_mul n1 ng2 (norm_nonneg _) (by norm_num)
    obtain ⟨gm, cm⟩ := cMul_close z1 g (big_le _ (nzg.trans (by norm_num)))
    generalize cMul z1 g = m at *
    have cm' : ‖cv m - S * cv z1‖ ≤ 1 / 2 ^ 17 := by
      have e : cv m - S * cv z1 = (cv m - cv z1 * cv g) + cv z1 * (cv g - S) := by ring
      rw [e]
      refine (norm_add_le _ _).trans ?_
      rw [norm_mul]
      have m1 := mul_le_mul n1 hg (norm_nonneg _) (by positivity)
      have m2 := mul_le_mul_of_nonneg_left nzg u0.le
      rw [un] at m1 m2 cm et; norm_num at m1 m2 cm et ⊢; linarith
    have nm : ‖cv m‖ ≤ 2 ^ 32 := by
      have := norm_add_le (cv m - S * cv z1) (S * cv z1)
      rw [sub_add_cancel, norm_mul, nS, one_mul] at this
      norm_num at cm' n1 ⊢; linarith
    obtain ⟨ga, ca⟩ := wAdd_close z0 m w0 gm.weak (n0.trans (by norm_num)) (nm.trans (by norm_num))
    obtain ⟨gb, cb⟩ := wSub_close z0 m w0 gm.weak (n0.trans (by norm_num)) (nm.trans (by norm_num))
    have b1 : ‖cv z0 + cv m‖ ≤ 2 ^ 33 := (norm_add_le _ _).trans (by norm_num at n0 nm ⊢; linarith)
    have b2 : ‖cv z0 - cv m‖ ≤ 2 ^ 33 := (norm_sub_le _ _).trans (by norm_num at n0 nm ⊢; linarith)
    refine ⟨ga.weak, ?_, gb.weak, ?_⟩
    · rw [show cv (cAdd z0 m) - (cv z0 + S * cv z1) = (cv (cAdd z0 m) - (cv z0 + cv m)) + (cv m - S * cv z1) by ring]
      have := mul_le_mul_of_nonneg_left b1 u0.le
      refine (norm_add_le _ _).trans ?_
      rw [un] at this ca et; norm_num at this ca et cm' ⊢; linarith
    · rw [show cv (cSub z0 m) - (cv z0 - S * cv z1) = (cv (cSub z0 m) - (cv z0 - cv m)) - (cv m - S * cv z1) by ring]
      have := mul_le_mul_of_nonneg_left b2 u0.le
      refine (norm_sub_le _ _).trans ?_
      rw [un] at this cb et; norm_num at this cb et cm' ⊢; linarith

/-- The routines of the unrolled code. -/
theorem accurate_tree : Accurate splitTree mergeTree where
  split1 := fun _ => by unfold splitTree; rw [if_neg (by norm_num)]
  merge1 := fun _ _ => by unfold mergeTree; rw [if_neg (by norm_num)]
  split := fun s hs t p hp w0 w1 n0 n1 => by
    have dy := accurate_dyn.split s hs t p hp w0 w1 n0 n1
    by_cases h : s = 0
    · subst h
      obtain rfl : p = 0 := by simpa using hp
      have s4 := split4_close (slot t 2 0) (slot t 2 1) w0 w1 n0 n1
      have e1 : slot (splitTree t (0 + 2)).1 (2 ^ 0) 0 = (split4 (slot t 2 0) (slot t 2 1)).1 := rfl
      have e2 : slot (splitTree t (0 + 2)).2 (2 ^ 0) 0 = (split4 (slot t 2 0) (slot t 2 1)).2 := rfl
      rw [e1, e2, s4.1]
      rw [(split_slots 0 t 0 (by norm_num)).1] at dy
      exact ⟨dy.1, dy.2.1, s4.2⟩
    · have e : splitTree t (s + 2) = polySplitFft t (s + 2) := by unfold splitTree; rw [if_neg (by omega)]
      rw [e]; exact dy
  merge := fun s hs c d p hp w0 w1 n0 n1 => by
    by_cases h : s = 0
    · subst h
      obtain rfl : p = 0 := by simpa using hp
      exact merge4_close (slot c 1 0) (slot d 1 0) w0 w1 n0 n1
    · have e : mergeTree c d (s + 2) = polyMergeFft c d (s + 2) := by unfold mergeTree; rw [if_neg (by omega)]
      rw [e]; exact accurate_dyn.merge s hs c d p hp w0 w1 n0 n1

end Verif.CRef.SignTree
