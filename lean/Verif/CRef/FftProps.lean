import Verif.CRef.FftInv
import Verif.CRef.FprConv
import Verif.Ring.Quot

/-! # The transforms: accuracy, and exactness on integers -/

namespace Verif.CRef.Fft

open Verif.CRef.Fpr Verif.Ring

/-- Magnitudes for which neither underflow nor overflow matters. -/
def InRange (B : ℝ) : Prop := (2 : ℝ) ^ (-900 : ℤ) ≤ B ∧ B ≤ 2 ^ 800

theorem range_eta (B : ℝ) (h : InRange B) : eta ≤ uu * B / 2 ^ 10 := by
  unfold eta uu
  have : (2 : ℝ) ^ (-1022 : ℤ) ≤ (2 : ℝ) ^ (-900 : ℤ) / 2 ^ 53 / 2 ^ 10 := by
    rw [div_div, ← pow_add, ← zpow_natCast, ← zpow_sub₀ (by norm_num)]
    exact zpow_le_zpow_right₀ (by norm_num) (by norm_num)
  have h2 := h.1
  generalize (2 : ℝ) ^ (-900 : ℤ) = t at *
  refine this.trans ?_
  norm_num
  linarith

theorem range_big (B : ℝ) (h : InRange B) : B * 2 ^ 30 ≤ big := by
  unfold big
  have h2 := h.2
  rw [show (2 : ℝ) ^ 900 = 2 ^ 800 * 2 ^ 100 by rw [← pow_add]]
  have hp : (0 : ℝ) < 2 ^ 800 := by positivity
  generalize (2 : ℝ) ^ 800 = t at *
  norm_num
  linarith

theorem range_pos (B : ℝ) (h : InRange B) : 0 < B := lt_of_lt_of_le (by positivity) h.1

/-- **C103** (accuracy). `FFT` of `n` numbers of magnitude at most `B` holds in slot `u` the value of the polynomial at `exp(i π (4 rev(u) + 1)/n)`, up to `(log n - 1) n B / 2^50`. -/
theorem C103_fft (logn : ℕ) (h1 : 1 ≤ logn) (h2 : logn ≤ 10) (f : List W) (hf : f.length = 2 ^ logn) (B : ℝ) (hB : InRange B) (hv : ∀ j < 2 ^ logn, Ok f[j]! ∧ |val f[j]!| ≤ B) :
    (fft f logn).length = 2 ^ logn ∧ ∀ u < 2 ^ logn / 2, Ok (fft f logn)[u]! ∧ Ok (fft f logn)[u + 2 ^ logn / 2]! ∧
      ‖(⟨val (fft f logn)[u]!, val (fft f logn)[u + 2 ^ logn / 2]!⟩ : ℂ) - pev logn (fun j => val f[j]!) (root logn u)‖ ≤ ((logn - 1 : ℕ) : ℝ) * 2 ^ logn * B / 2 ^ 50 := by
  obtain ⟨s, rfl⟩ : ∃ s, logn = s + 1 := ⟨logn - 1, by omega⟩
  obtain ⟨l, sl⟩ := fft_slot s f hf
  have e : 2 ^ (s + 1) / 2 = 2 ^ s := by rw [pow_succ]; omega
  refine ⟨l, fun u hu => ?_⟩
  rw [e] at hu ⊢
  have key := rfft_approx s (by omega) (slot f (2 ^ s)) (fun j => val f[j]!) B (fun j hj => ⟨⟨(hv j (by rw [pow_succ]; omega)).1, (hv (j + 2 ^ s) (by rw [pow_succ]; omega)).1⟩, rfl, rfl⟩)
    (fun j hj => (hv j hj).2) (range_eta B hB) (by have := range_big B hB; have := range_pos B hB; norm_num at *; linarith) u hu
  rw [← sl u hu] at key
  refine ⟨key.1.1, key.1.2, key.2.trans (le_of_eq ?_)⟩
  rw [Nat.add_sub_cancel]
  unfold uu
  norm_num
  ring

/-- **C103**: constants are their own transform. -/
theorem C103_const (f : List W) : fft f 0 = f ∧ ifft f 0 = f := ⟨rfl, rfl⟩

/-- **C103**, the order of the comment in fft.c 145-168 fails: there slot 1 of four coefficients is said to hold the value at `exp(3 i π/4)`, but for the polynomial `X` it holds a number with negative imaginary
part. -/
theorem C103_order_false : (fft [0, 0x3FF0000000000000, 0, 0] 2)[3]! = 0xBFE6A09E667F3BCD#64 ∧ val 0xBFE6A09E667F3BCD#64 < 0 ∧ 0 < (Complex.exp (3 * Real.pi * Complex.I / 4)).im := by
  refine ⟨by decide +kernel, ?_, ?_⟩
  · have := (wOk_val 0xBFE6A09E667F3BCD (by decide +kernel)).2
    rw [this]
    have : iv 0xBFE6A09E667F3BCD < 0 := by decide +kernel
    have : (iv 0xBFE6A09E667F3BCD : ℝ) < 0 := by exact_mod_cast this
    exact div_neg_of_neg_of_pos this (by norm_num)
  · rw [show (3 * Real.pi * Complex.I / 4 : ℂ) = ((3 * Real.pi / 4 : ℝ) : ℂ) * Complex.I by push_cast; ring, Complex.exp_ofReal_mul_I_im]
    have := Real.pi_pos
    exact Real.sin_pos_of_pos_of_lt_pi (by positivity) (by linarith)

/-! ## Inverse -/

theorem p2_val (s : ℕ) (hs : s ≤ 9) : val (BitVec.ofNat 64 p2Tab[s + 1]!) * 2 ^ s = 1 := by
  have : ∀ s ≤ 9, wOk p2Tab[s + 1]! = true ∧ iv p2Tab[s + 1]! * 2 ^ s = 2 ^ 62 := by decide +kernel
  obtain ⟨a, b⟩ := this s hs
  rw [(wOk_val _ a).2, div_mul_eq_mul_div, div_eq_one_iff_eq (by norm_num)]
  exact_mod_cast b

theorem map_get (n : ℕ) (g : ℕ → W) (u : ℕ) (hu : u < n) : ((List.range n).map g)[u]! = g u := by
  rw [List.getElem!_eq_getElem?_getD, List.getElem?_map, List.getElem?_range hu]; rfl

theorem ifft_slot (s : ℕ) (f : List W) (hf : f.length = 2 ^ (s + 1)) : (ifft f (s + 1)).length = 2 ^ (s + 1) ∧
    ∀ p < 2 ^ s, slot (ifft f (s + 1)) (2 ^ s) p = (mul (rifft s (slot f (2 ^ s)) p).1 (BitVec.ofNat 64 p2Tab[s + 1]!), mul (rifft s (slot f (2 ^ s)) p).2 (BitVec.ofNat 64 p2Tab[s + 1]!)) := by
  have e : 2 ^ (s + 1) / 2 = 2 ^ s := by rw [pow_succ]; omega
  unfold ifft
  dsimp only
  rw [if_neg (by omega), e, Nat.add_sub_cancel]
  have := ifftLoop_slot (2 ^ s) s 1 (2 ^ (s + 1)) f (by norm_num) (by ring) (by rw [hf, pow_succ]; ring)
  rw [iloopF_rifft] at this
  refine ⟨by rw [List.length_map, List.length_range], fun p hp => ?_⟩
  rw [← this.2 p hp]
  unfold slot
  rw [map_get _ _ p (by rw [pow_succ]; omega), map_get _ _ (p + 2 ^ s) (by rw [pow_succ]; omega)]

theorem ifft_close (s : ℕ) (hs : s ≤ 9) (F : List W) (hF : F.length = 2 ^ (s + 1)) (f : ℕ → ℝ) (e M : ℝ) (hM : InRange M) (he : e ≤ M / 2 ^ 30) (ha : Approx s (slot F (2 ^ s)) f e)
    (hm : ∀ p < 2 ^ s, ‖pev (s + 1) f (root (s + 1) p)‖ ≤ M) : ∀ j < 2 ^ (s + 1), Ok (ifft F (s + 1))[j]! ∧ |val (ifft F (s + 1))[j]! - f j| ≤ e + ((s + 1 : ℕ) : ℝ) * (14 * (uu * M)) := by
  have M0 := range_pos M hM
  have u0 := uu_pos
  have et := range_eta M hM
  have bg := range_big M hM
  have e0 : 0 ≤ e := (norm_nonneg _).trans (ha 0 (by positivity)).2
  have uM : 0 ≤ uu * M := by positivity
  have u1 : uu * M ≤ M / 2 ^ 53 := by unfold uu; rw [one_div, inv_mul_eq_div]
  have s9 : (s : ℝ) ≤ 9 := by exact_mod_cast hs
  have sM : (s : ℝ) * (14 * (uu * M)) ≤ 9 * (14 * (uu * M)) := mul_le_mul_of_nonneg_right s9 (by linarith)
  have sM0 : 0 ≤ (s : ℝ) * (14 * (uu * M)) := by positivity
  have p9 : (2 : ℝ) ^ s ≤ 2 ^ 9 := pow_le_pow_right₀ (by norm_num) hs
  have pM : M * 2 ^ s ≤ M * 2 ^ 9 := mul_le_mul_of_nonneg_left p9 M0.le
  have key := rifft_approx s hs (slot F (2 ^ s)) f e M ha hm (by norm_num at *; linarith) et (by norm_num at *; linarith)
  have one : ∀ (z : W) (r : ℝ), |val z - 2 ^ s * r| ≤ 2 ^ s * (e + s * (14 * (uu * M))) → |r| ≤ M →
      Ok (mul z (BitVec.ofNat 64 p2Tab[s + 1]!)) ∧ |val (mul z (BitVec.ofNat 64 p2Tab[s + 1]!)) - r| ≤ e + ((s + 1 : ℕ) : ℝ) * (14 * (uu * M)) := by
    intro z r h1 h2
    obtain ⟨c, hc⟩ : ∃ c, val (BitVec.ofNat 64 p2Tab[s + 1]!) = c := ⟨_, rfl⟩
    have pc := p2_val s hs
    rw [hc] at pc
    have cp : 0 < c := by
      by_contra hn
      push Not at hn
      have := mul_nonpos_of_nonpos_of_nonneg hn (show (0 : ℝ) ≤ 2 ^ s by positivity)
      linarith
    have h3 : |val z * c - r| ≤ e + s * (14 * (uu * M)) := by
      have : val z * c - r = c * (val z - 2 ^ s * r) := by linear_combination r * pc
      rw [this, abs_mul, abs_of_pos cp]
      have := mul_le_mul_of_nonneg_left h1 cp.le
      refine this.trans (le_of_eq ?_)
      linear_combination (e + s * (14 * (uu * M))) * pc
    have h4 : |val z * c| ≤ M * (1 + 1 / 1000) := by
      have := abs_add_le (val z * c - r) r
      rw [sub_add_cancel] at this
      norm_num at *
      linarith
    have rd := rounded_close _ _ (C99_mul z (BitVec.ofNat 64 p2Tab[s + 1]!))
    rw [hc] at rd
    obtain ⟨o, cl⟩ := rd (h4.trans (by have := big_huge; norm_num at *; linarith))
    refine ⟨o, ?_⟩
    have t := abs_add_le (val (mul z (BitVec.ofNat 64 p2Tab[s + 1]!)) - val z * c) (val z * c - r)
    rw [sub_add_sub_cancel] at t
    have m := mul_le_mul_of_nonneg_left h4 u0.le
    push_cast
    norm_num at et
    linarith
  have hs' := (ifft_slot s F hF).2
  have comp : ∀ p < 2 ^ s, (Ok (ifft F (s + 1))[p]! ∧ |val (ifft F (s + 1))[p]! - f p| ≤ e + ((s + 1 : ℕ) : ℝ) * (14 * (uu * M))) ∧
      (Ok (ifft F (s + 1))[p + 2 ^ s]! ∧ |val (ifft F (s + 1))[p + 2 ^ s]! - f (p + 2 ^ s)| ≤ e + ((s + 1 : ℕ) : ℝ) * (14 * (uu * M))) := by
    intro p hp
    obtain ⟨_, c, m⟩ := key p hp
    have hsl := hs' p hp
    have e1 : (ifft F (s + 1))[p]! = mul (rifft s (slot F (2 ^ s)) p).1 (BitVec.ofNat 64 p2Tab[s + 1]!) := congrArg Prod.fst hsl
    have e2 : (ifft F (s + 1))[p + 2 ^ s]! = mul (rifft s (slot F (2 ^ s)) p).2 (BitVec.ofNat 64 p2Tab[s + 1]!) := congrArg Prod.snd hsl
    have c1 := (Complex.abs_re_le_norm _).trans c
    have c2 := (Complex.abs_im_le_norm _).trans c
    have m1 := (Complex.abs_re_le_norm _).trans m
    have m2 := (Complex.abs_im_le_norm _).trans m
    have ep : (2 : ℂ) ^ s = ((2 ^ s : ℝ) : ℂ) := by push_cast; rfl
    rw [ep, Complex.sub_re, Complex.re_ofReal_mul] at c1
    rw [ep, Complex.sub_im, Complex.im_ofReal_mul] at c2
    rw [e1, e2]
    exact ⟨one _ _ c1 m1, one _ _ c2 m2⟩
  intro j hj
  rcases lt_or_ge j (2 ^ s) with c | c
  · exact (comp j c).1
  · have := (comp (j - 2 ^ s) (by rw [pow_succ] at hj; omega)).2
    rw [Nat.sub_add_cancel c] at this
    exact this

/-- **C104** (accuracy). When slot `u` holds `f(exp(i π (4 rev(u) + 1)/n))` up to `e`, and those values are at most `M`, then `iFFT` returns the coefficients of `f` up to `e + 14 log(n) M / 2^53`. -/
theorem C104_ifft (logn : ℕ) (h1 : 1 ≤ logn) (h2 : logn ≤ 10) (F : List W) (hF : F.length = 2 ^ logn) (f : ℕ → ℝ) (e M : ℝ) (hM : InRange M) (he : e ≤ M / 2 ^ 30)
    (ha : ∀ u < 2 ^ logn / 2, Ok F[u]! ∧ Ok F[u + 2 ^ logn / 2]! ∧ ‖(⟨val F[u]!, val F[u + 2 ^ logn / 2]!⟩ : ℂ) - pev logn f (root logn u)‖ ≤ e)
    (hm : ∀ u < 2 ^ logn / 2, ‖pev logn f (root logn u)‖ ≤ M) :
    (ifft F logn).length = 2 ^ logn ∧ ∀ j < 2 ^ logn, Ok (ifft F logn)[j]! ∧ |val (ifft F logn)[j]! - f j| ≤ e + 14 * logn * M / 2 ^ 53 := by
  obtain ⟨s, rfl⟩ : ∃ s, logn = s + 1 := ⟨logn - 1, by omega⟩
  have e2 : 2 ^ (s + 1) / 2 = 2 ^ s := by rw [pow_succ]; omega
  rw [e2] at ha hm
  refine ⟨(ifft_slot s F hF).1, fun j hj => ?_⟩
  obtain ⟨k1, k2⟩ := ifft_close s (by omega) F hF f e M hM he (fun p hp => ⟨⟨(ha p hp).1, (ha p hp).2.1⟩, (ha p hp).2.2⟩) hm j hj
  refine ⟨k1, k2.trans (le_of_eq ?_)⟩
  unfold uu
  ring

/-! ## Exactness on integer polynomials -/

/-- The words stand for the integers. -/
def Holds (n : ℕ) (F : List W) (a : List ℤ) : Prop := F.length = n ∧ a.length = n ∧ ∀ j < n, Ok F[j]! ∧ val F[j]! = (a.getD j 0 : ℝ)

/-- The array holds the transform of the integer polynomial `a`, with relative error `c` units of `2^-53`; its values are at most `M`. -/
def Ap (s : ℕ) (F : List W) (a : List ℤ) (c M : ℝ) : Prop :=
  F.length = 2 ^ (s + 1) ∧ a.length = 2 ^ (s + 1) ∧ Approx s (slot F (2 ^ s)) (fun j => (a.getD j 0 : ℝ)) (c * (uu * M)) ∧ ∀ p < 2 ^ s, ‖pev (s + 1) (fun j => (a.getD j 0 : ℝ)) (root (s + 1) p)‖ ≤ M

theorem pev_ev (k : ℕ) (a : List ℤ) (ha : a.length = 2 ^ k) (w : ℂ) : pev k (fun j => (a.getD j 0 : ℝ)) w = ev w a := by
  unfold pev ev
  rw [ha]
  refine Finset.sum_congr rfl fun j _ => ?_
  rw [show at' a j = a.getD j 0 from rfl]
  simp

theorem root_pow (k u : ℕ) : root k u ^ 2 ^ k = -1 := by
  unfold root
  rw [← Complex.exp_nat_mul]
  have : ((2 ^ k : ℕ) : ℂ) * ((4 * bitrev (k - 1) u + 1 : ℕ) * Real.pi * Complex.I / 2 ^ k) = Real.pi * Complex.I + (2 * bitrev (k - 1) u : ℕ) * (2 * Real.pi * Complex.I) := by
    push_cast; field_simp; ring
  rw [this, Complex.exp_add, Complex.exp_nat_mul_two_pi_mul_I, mul_one, Complex.exp_pi_mul_I]

theorem fft_ap (s : ℕ) (hs : s ≤ 9) (F : List W) (a : List ℤ) (B : ℝ) (hB : InRange B) (h : Holds (2 ^ (s + 1)) F a) (hb : ∀ j < 2 ^ (s + 1), |(a.getD j 0 : ℝ)| ≤ B) :
    Ap s (fft F (s + 1)) a (8 * s) (2 ^ (s + 1) * B) := by
  obtain ⟨h1, h2, h3⟩ := h
  obtain ⟨l, sl⟩ := fft_slot s F h1
  refine ⟨l, h2, fun p hp => ?_, fun p hp => pev_le _ _ B hb _ (root_norm _ _)⟩
  have key := rfft_approx s hs (slot F (2 ^ s)) (fun j => (a.getD j 0 : ℝ)) B
    (fun j hj => ⟨⟨(h3 j (by rw [pow_succ]; omega)).1, (h3 (j + 2 ^ s) (by rw [pow_succ]; omega)).1⟩, (h3 j (by rw [pow_succ]; omega)).2, (h3 (j + 2 ^ s) (by rw [pow_succ]; omega)).2⟩)
    hb (range_eta B hB) (by have := range_big B hB; have := range_pos B hB; norm_num at *; linarith) p hp
  rw [sl p hp]
  exact ⟨key.1, key.2.trans (le_of_eq (by ring))⟩

theorem ofSlots_slot (s : ℕ) (z : ℕ → C) : (ofSlots (s + 1) z).length = 2 ^ (s + 1) ∧ ∀ p < 2 ^ s, slot (ofSlots (s + 1) z) (2 ^ s) p = z p := by
  have e : 2 ^ (s + 1) / 2 = 2 ^ s := by rw [pow_succ]; omega
  unfold ofSlots
  refine ⟨by rw [List.length_map, List.length_range], fun p hp => ?_⟩
  unfold slot
  rw [map_get _ _ p (by rw [pow_succ]; omega), map_get _ _ (p + 2 ^ s) (by rw [pow_succ]; omega), e, if_pos hp, if_neg (by omega), Nat.add_sub_cancel]

theorem mul_ap (s : ℕ) (F G : List W) (a b : List ℤ) (c d M N : ℝ) (hF : Ap s F a c M) (hG : Ap s G b d N) (hc : 0 ≤ c ∧ c ≤ 2 ^ 20) (hd : 0 ≤ d ∧ d ≤ 2 ^ 20) (hMN : InRange (M * N)) :
    Ap s (polyMulFft F G (s + 1)) (negMul (2 ^ (s + 1)) a b) (c + d + 6) (M * N) := by
  obtain ⟨f1, f2, f3, f4⟩ := hF
  obtain ⟨g1, g2, g3, g4⟩ := hG
  have e : 2 ^ (s + 1) / 2 = 2 ^ s := by rw [pow_succ]; omega
  have P0 := range_pos _ hMN
  have et := range_eta _ hMN
  have bg := range_big _ hMN
  have u0 := uu_pos
  have u1 : uu ≤ 1 / 2 ^ 53 := le_refl _
  have mulev : ∀ p, pev (s + 1) (fun j => ((negMul (2 ^ (s + 1)) a b).getD j 0 : ℝ)) (root (s + 1) p) = pev (s + 1) (fun j => (a.getD j 0 : ℝ)) (root (s + 1) p) * pev (s + 1) (fun j => (b.getD j 0 : ℝ)) (root (s + 1) p) := by
    intro p
    rw [pev_ev _ _ (length_negMul _ _ _), pev_ev _ _ f2, pev_ev _ _ g2]
    exact ev_negMul _ _ (root_pow _ _) a b f2 g2
  have M0 : 0 ≤ M := (norm_nonneg _).trans (f4 0 (by positivity))
  have N0 : 0 ≤ N := (norm_nonneg _).trans (g4 0 (by positivity))
  obtain ⟨l, sl⟩ := ofSlots_slot s (fun u => cMul (slot F (2 ^ (s + 1) / 2) u) (slot G (2 ^ (s + 1) / 2) u))
  refine ⟨l, length_negMul _ _ _, fun p hp => ?_, fun p hp => ?_⟩
  · unfold polyMulFft
    rw [sl p hp, e, mulev]
    obtain ⟨o1, x1⟩ := f3 p hp
    obtain ⟨o2, y1⟩ := g3 p hp
    have x2 := f4 p hp
    have y2 := g4 p hp
    generalize pev (s + 1) (fun j => (a.getD j 0 : ℝ)) (root (s + 1) p) = x at *
    generalize pev (s + 1) (fun j => (b.getD j 0 : ℝ)) (root (s + 1) p) = y at *
    generalize slot F (2 ^ s) p = x' at *
    generalize slot G (2 ^ s) p = y' at *
    have small : ∀ t : ℝ, 0 ≤ t → t ≤ 2 ^ 20 → t * uu ≤ 1 / 2 ^ 33 := by
      intro t ht0 ht
      have := mul_le_mul ht u1 u0.le (by norm_num)
      norm_num at *; linarith
    have cu := small c hc.1 hc.2
    have du := small d hd.1 hd.2
    have cu0 : 0 ≤ c * uu := mul_nonneg hc.1 u0.le
    have du0 : 0 ≤ d * uu := mul_nonneg hd.1 u0.le
    have nx : ‖cv x'‖ ≤ M * (1 + c * uu) := by
      have := norm_add_le (cv x' - x) x; rw [sub_add_cancel] at this
      have : c * (uu * M) = M * (c * uu) := by ring
      linarith
    have ny : ‖cv y'‖ ≤ N * (1 + d * uu) := by
      have := norm_add_le (cv y' - y) y; rw [sub_add_cancel] at this
      have : d * (uu * N) = N * (d * uu) := by ring
      linarith
    have nxy : ‖cv x'‖ * ‖cv y'‖ ≤ M * N * (1 + 1 / 2 ^ 31) := by
      have h1 := mul_le_mul nx ny (norm_nonneg _) (by positivity)
      have h2 : (1 + c * uu) * (1 + d * uu) ≤ 1 + 1 / 2 ^ 31 := by
        have := mul_le_mul (show 1 + c * uu ≤ 1 + 1 / 2 ^ 33 by linarith) (show 1 + d * uu ≤ 1 + 1 / 2 ^ 33 by linarith) (by linarith) (by norm_num)
        refine this.trans (by norm_num)
      have h3 := mul_le_mul_of_nonneg_left h2 P0.le
      calc _ ≤ _ := h1
        _ = M * N * ((1 + c * uu) * (1 + d * uu)) := by ring
        _ ≤ _ := h3
    obtain ⟨o, cl⟩ := cMul_close x' y' (nxy.trans (by norm_num at *; linarith))
    refine ⟨o, ?_⟩
    have h1 : cv (cMul x' y') - x * y = (cv (cMul x' y') - cv x' * cv y') + ((cv x' - x) * cv y' + x * (cv y' - y)) := by ring
    have h2 := norm_add_le (cv (cMul x' y') - cv x' * cv y') ((cv x' - x) * cv y' + x * (cv y' - y))
    have h3 := norm_add_le ((cv x' - x) * cv y') (x * (cv y' - y))
    rw [norm_mul, norm_mul] at h3
    rw [← h1] at h2
    have h4 := mul_le_mul x1 ny (norm_nonneg _) (mul_nonneg hc.1 (mul_nonneg u0.le M0))
    have h5 := mul_le_mul x2 y1 (norm_nonneg _) M0
    have h6 := mul_le_mul_of_nonneg_left nxy u0.le
    have e4 : c * (uu * M) * (N * (1 + d * uu)) = c * (uu * (M * N)) + (c * uu) * d * (uu * (M * N)) := by ring
    have e5 : M * (d * (uu * N)) = d * (uu * (M * N)) := by ring
    rw [e4] at h4
    rw [e5] at h5
    have e6 : (c * uu) * d ≤ 1 / 2 ^ 13 := by
      have := mul_le_mul cu hd.2 hd.1 (by norm_num)
      norm_num at *; linarith
    have uP : 0 ≤ uu * (M * N) := by positivity
    have h7 := mul_le_mul_of_nonneg_right e6 uP
    have e8 : uu * (M * N * (1 + 1 / 2 ^ 31)) = uu * (M * N) + uu * (M * N) / 2 ^ 31 := by ring
    rw [e8] at h6
    have e10 : uu * (5 * (‖cv x'‖ * ‖cv y'‖)) = 5 * (uu * (‖cv x'‖ * ‖cv y'‖)) := by ring
    rw [e10] at cl
    generalize uu * (M * N) = X at *
    have e9 : (c + d + 6) * X = c * X + d * X + 6 * X := by ring
    rw [e9]
    norm_num at *
    linarith
  · rw [mulev, norm_mul]
    exact mul_le_mul (f4 p hp) (g4 p hp) (norm_nonneg _) M0

end Verif.CRef.Fft
