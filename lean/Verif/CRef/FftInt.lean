import Verif.CRef.FftProps
import Mathlib.Data.List.GetD

/-! # Exactness of the transforms on integer polynomials -/

namespace Verif.CRef.Fft

open Verif.CRef.Fpr Verif.Ring

theorem pev_add (k : ℕ) (f g : ℕ → ℝ) (w : ℂ) : pev k (fun j => f j + g j) w = pev k f w + pev k g w := by
  unfold pev; rw [← Finset.sum_add_distrib]; refine Finset.sum_congr rfl fun j _ => ?_; push_cast; ring

theorem pev_congr (k : ℕ) (f g : ℕ → ℝ) (w : ℂ) (h : ∀ j < 2 ^ k, f j = g j) : pev k f w = pev k g w := by
  unfold pev; refine Finset.sum_congr rfl fun j hj => ?_; rw [h j (Finset.mem_range.1 hj)]

theorem getD_zipWith_add (a b : List ℤ) (n : ℕ) (ha : a.length = n) (hb : b.length = n) (j : ℕ) (hj : j < n) : (List.zipWith (· + ·) a b).getD j 0 = a.getD j 0 + b.getD j 0 := by
  rw [List.getD_eq_getElem _ _ (by rw [List.length_zipWith]; omega), List.getElem_zipWith, List.getD_eq_getElem _ _ (by omega), List.getD_eq_getElem _ _ (by omega)]

theorem getD_map_neg (a : List ℤ) (n : ℕ) (ha : a.length = n) (j : ℕ) (hj : j < n) : (a.map (- ·)).getD j 0 = - a.getD j 0 := by
  rw [List.getD_eq_getElem _ _ (by rw [List.length_map]; omega), List.getElem_map, List.getD_eq_getElem _ _ (by omega)]

theorem polyAdd_slot (s : ℕ) (F G : List W) : (polyAdd F G (s + 1)).length = 2 ^ (s + 1) ∧ ∀ p < 2 ^ s, slot (polyAdd F G (s + 1)) (2 ^ s) p = cAdd (slot F (2 ^ s) p) (slot G (2 ^ s) p) := by
  unfold polyAdd
  refine ⟨by rw [List.length_map, List.length_range], fun p hp => ?_⟩
  unfold slot cAdd
  rw [map_get _ _ p (by rw [pow_succ]; omega), map_get _ _ (p + 2 ^ s) (by rw [pow_succ]; omega)]

theorem polyNeg_slot (s : ℕ) (F : List W) : (polyNeg F (s + 1)).length = 2 ^ (s + 1) ∧ ∀ p < 2 ^ s, slot (polyNeg F (s + 1)) (2 ^ s) p = (neg (slot F (2 ^ s) p).1, neg (slot F (2 ^ s) p).2) := by
  unfold polyNeg
  refine ⟨by rw [List.length_map, List.length_range], fun p hp => ?_⟩
  unfold slot
  rw [map_get _ _ p (by rw [pow_succ]; omega), map_get _ _ (p + 2 ^ s) (by rw [pow_succ]; omega)]

theorem add_ap (s : ℕ) (F G : List W) (a b : List ℤ) (c M N : ℝ) (hF : Ap s F a c M) (hG : Ap s G b c N) (hc : 0 ≤ c ∧ c ≤ 2 ^ 20) (hMN : InRange (M + N)) :
    Ap s (polyAdd F G (s + 1)) (List.zipWith (· + ·) a b) (c + 3) (M + N) := by
  obtain ⟨f1, f2, f3, f4⟩ := hF
  obtain ⟨g1, g2, g3, g4⟩ := hG
  have P0 := range_pos _ hMN
  have et := range_eta _ hMN
  have bg := range_big _ hMN
  have u0 := uu_pos
  have u1 : uu ≤ 1 / 2 ^ 53 := le_refl _
  have M0 : 0 ≤ M := (norm_nonneg _).trans (f4 0 (by positivity))
  have N0 : 0 ≤ N := (norm_nonneg _).trans (g4 0 (by positivity))
  have lz : (List.zipWith (· + ·) a b).length = 2 ^ (s + 1) := by rw [List.length_zipWith, f2, g2, min_self]
  have ev : ∀ p, pev (s + 1) (fun j => (((List.zipWith (· + ·) a b).getD j 0 : ℤ) : ℝ)) (root (s + 1) p) = pev (s + 1) (fun j => (a.getD j 0 : ℝ)) (root (s + 1) p) + pev (s + 1) (fun j => (b.getD j 0 : ℝ)) (root (s + 1) p) := by
    intro p
    rw [← pev_add]
    refine pev_congr _ _ _ _ fun j hj => ?_
    rw [getD_zipWith_add a b _ f2 g2 j hj]; push_cast; rfl
  obtain ⟨l, sl⟩ := polyAdd_slot s F G
  refine ⟨l, lz, fun p hp => ?_, fun p hp => ?_⟩
  · rw [sl p hp, ev]
    obtain ⟨o1, x1⟩ := f3 p hp
    obtain ⟨o2, y1⟩ := g3 p hp
    have x2 := f4 p hp
    have y2 := g4 p hp
    generalize pev (s + 1) (fun j => (a.getD j 0 : ℝ)) (root (s + 1) p) = x at *
    generalize pev (s + 1) (fun j => (b.getD j 0 : ℝ)) (root (s + 1) p) = y at *
    generalize slot F (2 ^ s) p = x' at *
    generalize slot G (2 ^ s) p = y' at *
    have cu : c * uu ≤ 1 / 2 ^ 33 := by
      have := mul_le_mul hc.2 u1 u0.le (by norm_num)
      norm_num at *; linarith
    have cM : c * (uu * M) ≤ M / 100 := by
      have := mul_le_mul_of_nonneg_right cu M0; norm_num at *; linarith
    have cN : c * (uu * N) ≤ N / 100 := by
      have := mul_le_mul_of_nonneg_right cu N0; norm_num at *; linarith
    have nx : ‖cv x'‖ ≤ M + c * (uu * M) := by
      have := norm_add_le (cv x' - x) x; rw [sub_add_cancel] at this; linarith
    have ny : ‖cv y'‖ ≤ N + c * (uu * N) := by
      have := norm_add_le (cv y' - y) y; rw [sub_add_cancel] at this; linarith
    obtain ⟨o, cl⟩ := cAdd_close x' y' o1 o2 (by norm_num at *; linarith) (by norm_num at *; linarith)
    refine ⟨o, ?_⟩
    have h1 := norm_add_le (cv (cAdd x' y') - (cv x' + cv y')) ((cv x' - x) + (cv y' - y))
    rw [show cv (cAdd x' y') - (cv x' + cv y') + ((cv x' - x) + (cv y' - y)) = cv (cAdd x' y') - (x + y) by ring] at h1
    have h2 := norm_add_le (cv x' - x) (cv y' - y)
    have h3 : ‖cv x' + cv y'‖ ≤ (M + N) * (1 + 1 / 100) := (norm_add_le _ _).trans (by linarith)
    have h4 := mul_le_mul_of_nonneg_left h3 u0.le
    have uP : 0 ≤ uu * (M + N) := by positivity
    have e1 : (c + 3) * (uu * (M + N)) = c * (uu * M) + c * (uu * N) + 3 * (uu * (M + N)) := by ring
    rw [e1]
    norm_num at et
    linarith
  · rw [ev]
    exact (norm_add_le _ _).trans (by linarith [f4 p hp, g4 p hp])

theorem neg_ap (s : ℕ) (F : List W) (a : List ℤ) (c M : ℝ) (hF : Ap s F a c M) : Ap s (polyNeg F (s + 1)) (a.map (- ·)) c M := by
  obtain ⟨f1, f2, f3, f4⟩ := hF
  obtain ⟨l, sl⟩ := polyNeg_slot s F
  have ev : ∀ p, pev (s + 1) (fun j => (((a.map (- ·)).getD j 0 : ℤ) : ℝ)) (root (s + 1) p) = - pev (s + 1) (fun j => (a.getD j 0 : ℝ)) (root (s + 1) p) := by
    intro p
    rw [← neg_one_mul, show (-1 : ℂ) = ((-1 : ℝ) : ℂ) by push_cast; rfl, ← pev_smul]
    refine pev_congr _ _ _ _ fun j hj => ?_
    rw [getD_map_neg a _ f2 j hj]; push_cast; ring
  refine ⟨l, by rw [List.length_map, f2], fun p hp => ?_, fun p hp => by rw [ev, norm_neg]; exact f4 p hp⟩
  rw [sl p hp, ev]
  obtain ⟨o, x⟩ := f3 p hp
  refine ⟨⟨(C99_neg _).2 o.1, (C99_neg _).2 o.2⟩, ?_⟩
  have e : cv (neg (slot F (2 ^ s) p).1, neg (slot F (2 ^ s) p).2) = - cv (slot F (2 ^ s) p) := by
    unfold cv; apply Complex.ext
    · show val (neg _) = _; rw [(C99_neg _).1]; rfl
    · show val (neg _) = _; rw [(C99_neg _).1]; rfl
  rw [e, neg_sub_neg, norm_sub_rev]; exact x

/-- Rounding the inverse transform gives the integers. -/
theorem round_ap (s : ℕ) (hs : s ≤ 9) (F : List W) (a : List ℤ) (c M : ℝ) (hF : Ap s F a c M) (hM : InRange M) (hc : 0 ≤ c ∧ c ≤ 2 ^ 20) (hb : (c + 14 * (s + 1)) * M < 2 ^ 52) (hM2 : M ≤ 2 ^ 60) :
    (ifft F (s + 1)).length = 2 ^ (s + 1) ∧ ∀ j < 2 ^ (s + 1), int64 (rint (ifft F (s + 1))[j]!) = a.getD j 0 ∧ |(a.getD j 0 : ℝ)| ≤ M + 1 ∧ |val (ifft F (s + 1))[j]! - a.getD j 0| < 1 / 2 := by
  obtain ⟨f1, f2, f3, f4⟩ := hF
  have u0 := uu_pos
  have u1 : uu ≤ 1 / 2 ^ 53 := le_refl _
  have M0 := range_pos _ hM
  have cu : c * uu ≤ 1 / 2 ^ 33 := by
    have := mul_le_mul hc.2 u1 u0.le (by norm_num)
    norm_num at *; linarith
  refine ⟨(ifft_slot s F f1).1, fun j hj => ?_⟩
  obtain ⟨o, cl⟩ := ifft_close s hs F f1 (fun j => (a.getD j 0 : ℝ)) (c * (uu * M)) M hM (by have := mul_le_mul_of_nonneg_right cu M0.le; norm_num at *; linarith) f3 f4 j hj
  have bb : c * (uu * M) + ((s + 1 : ℕ) : ℝ) * (14 * (uu * M)) < 1 / 2 := by
    have : c * (uu * M) + ((s + 1 : ℕ) : ℝ) * (14 * (uu * M)) = (c + 14 * (s + 1)) * M / 2 ^ 53 := by unfold uu; push_cast; ring
    rw [this, div_lt_iff₀ (by norm_num)]; norm_num at *; linarith
  have cl2 := cl.trans_lt bb
  -- the coefficient is bounded by the values
  have ab : |(a.getD j 0 : ℝ)| ≤ M := by
    have mk := rifft_approx s hs (fun p => slot F (2 ^ s) p) (fun j => (a.getD j 0 : ℝ)) (c * (uu * M)) M f3 f4 ?_ (range_eta _ hM) ?_
    · rcases lt_or_ge j (2 ^ s) with h | h
      · exact (Complex.abs_re_le_norm _).trans (mk j h).2.2
      · have := (Complex.abs_im_le_norm _).trans (mk (j - 2 ^ s) (by rw [pow_succ] at hj; omega)).2.2
        simp only [Nat.sub_add_cancel h] at this
        exact this
    · have s9 : (s : ℝ) ≤ 9 := by exact_mod_cast hs
      have uM : uu * M ≤ M / 2 ^ 53 := by unfold uu; rw [one_div, inv_mul_eq_div]
      have uM0 : 0 ≤ uu * M := by positivity
      have := mul_le_mul_of_nonneg_right s9 (show 0 ≤ 14 * (uu * M) by linarith)
      have := mul_le_mul_of_nonneg_right cu M0.le
      norm_num at *; linarith
    · have p9 : (2 : ℝ) ^ s ≤ 2 ^ 9 := pow_le_pow_right₀ (by norm_num) hs
      have := mul_le_mul_of_nonneg_left p9 M0.le
      have := range_big _ hM
      norm_num at *; linarith
  have vb : |val (ifft F (s + 1))[j]!| < 2 ^ 63 := by
    have := abs_add_le (val (ifft F (s + 1))[j]! - a.getD j 0) (a.getD j 0)
    rw [sub_add_cancel] at this
    norm_num at *; linarith
  refine ⟨?_, by linarith, cl2⟩
  rw [C99_rint _ vb]
  have := rne_near (a.getD j 0) (val (ifft F (s + 1))[j]! - a.getD j 0) cl2
  rw [add_sub_cancel] at this
  exact this

/-! ## The properties -/

theorem inRange_of (B : ℝ) (h1 : 1 ≤ B) (h2 : B ≤ 2 ^ 100) : InRange B := by
  constructor
  · refine le_trans ?_ h1
    rw [show (-900 : ℤ) = -((900 : ℕ) : ℤ) by norm_num, zpow_neg, zpow_natCast]
    exact inv_le_one_of_one_le₀ (one_le_pow₀ (by norm_num))
  · exact h2.trans (pow_le_pow_right₀ (by norm_num) (by norm_num))

/-- **C104** (round trip). `FFT` followed by `iFFT` and rounding returns any integer polynomial with `n · max|a_j| ≤ 2^44`. -/
theorem C104_roundtrip (logn : ℕ) (h1 : 1 ≤ logn) (h2 : logn ≤ 10) (F : List W) (a : List ℤ) (h : Holds (2 ^ logn) F a) (B : ℕ) (hB : ∀ x ∈ a, |x| ≤ B) (hn : 2 ^ logn * B ≤ 2 ^ 44) :
    ∀ j < 2 ^ logn, int64 (rint (ifft (fft F logn) logn)[j]!) = a.getD j 0 := by
  obtain ⟨s, rfl⟩ : ∃ s, logn = s + 1 := ⟨logn - 1, by omega⟩
  -- any larger bound is as good
  obtain ⟨B', hB0, hB1, hB2⟩ : ∃ B' : ℕ, 1 ≤ B' ∧ 2 ^ (s + 1) * B' ≤ 2 ^ 44 ∧ B ≤ B' := by
    rcases Nat.eq_zero_or_pos B with h0 | h0
    · exact ⟨1, le_refl _, by rw [mul_one]; exact Nat.pow_le_pow_right (by norm_num) (by omega), by omega⟩
    · exact ⟨B, h0, hn, le_refl _⟩
  have bR : ((2 : ℝ) ^ (s + 1) * B') ≤ 2 ^ 44 := by exact_mod_cast hB1
  have b1 : (1 : ℝ) ≤ B' := by exact_mod_cast hB0
  have s1 : (1 : ℝ) ≤ 2 ^ (s + 1) := one_le_pow₀ (by norm_num)
  have b2 : (B' : ℝ) ≤ 2 ^ 44 := by nlinarith
  have b3 : (1 : ℝ) ≤ 2 ^ (s + 1) * B' := by nlinarith
  have bb : ∀ j < 2 ^ (s + 1), |(a.getD j 0 : ℝ)| ≤ B' := by
    intro j hj
    rw [List.getD_eq_getElem _ _ (by rw [h.2.1]; exact hj)]
    have := (hB _ (List.getElem_mem (by rw [h.2.1]; exact hj))).trans (show (B : ℤ) ≤ B' by exact_mod_cast hB2)
    exact_mod_cast this
  have s9 : (s : ℝ) ≤ 9 := by exact_mod_cast (show s ≤ 9 by omega)
  have s0 : (0 : ℝ) ≤ s := by positivity
  have ap := fft_ap s (by omega) F a B' (inRange_of _ b1 (b2.trans (by norm_num))) h bb
  refine fun j hj => ((round_ap s (by omega) _ a _ _ ap (inRange_of _ b3 (bR.trans (by norm_num))) ⟨by positivity, by norm_num; linarith⟩ ?_ (bR.trans (by norm_num))).2 j hj).1
  have : (8 * (s : ℝ) + 14 * (s + 1)) * (2 ^ (s + 1) * B') ≤ 212 * 2 ^ 44 := mul_le_mul (by linarith) bR (by positivity) (by norm_num)
  norm_num at *; linarith

/-- **C105** (product). For integer polynomials with `n² max|a_j| max|b_j| ≤ 2^43`, the product computed with `FFT`, `poly_mul_fft`, `iFFT` and rounding is the exact product modulo `X^n + 1`. -/
theorem C105_mul (logn : ℕ) (h1 : 1 ≤ logn) (h2 : logn ≤ 10) (F G : List W) (a b : List ℤ) (ha : Holds (2 ^ logn) F a) (hb : Holds (2 ^ logn) G b) (A B : ℕ) (hA0 : 1 ≤ A) (hB0 : 1 ≤ B)
    (hA : ∀ x ∈ a, |x| ≤ A) (hB : ∀ x ∈ b, |x| ≤ B) (hn : (2 ^ logn) ^ 2 * (A * B) ≤ 2 ^ 43) :
    (List.range (2 ^ logn)).map (fun j => int64 (rint (ifft (polyMulFft (fft F logn) (fft G logn) logn) logn)[j]!)) = negMul (2 ^ logn) a b := by
  obtain ⟨s, rfl⟩ : ∃ s, logn = s + 1 := ⟨logn - 1, by omega⟩
  have bR : ((2 : ℝ) ^ (s + 1) * A) * ((2 : ℝ) ^ (s + 1) * B) ≤ 2 ^ 43 := by
    have : ((2 : ℝ) ^ (s + 1)) ^ 2 * (A * B) ≤ 2 ^ 43 := by exact_mod_cast hn
    calc _ = ((2 : ℝ) ^ (s + 1)) ^ 2 * (A * B) := by ring
      _ ≤ _ := this
  have a1 : (1 : ℝ) ≤ A := by exact_mod_cast hA0
  have b1 : (1 : ℝ) ≤ B := by exact_mod_cast hB0
  have s1 : (1 : ℝ) ≤ 2 ^ (s + 1) := one_le_pow₀ (by norm_num)
  have pa : (A : ℝ) ≤ 2 ^ (s + 1) * A := le_mul_of_one_le_left (by linarith) s1
  have pb : (B : ℝ) ≤ 2 ^ (s + 1) * B := le_mul_of_one_le_left (by linarith) s1
  have qa : (2 : ℝ) ^ (s + 1) * A ≤ 2 ^ 43 := (le_mul_of_one_le_right (by positivity) (b1.trans pb)).trans bR
  have qb : (2 : ℝ) ^ (s + 1) * B ≤ 2 ^ 43 := (le_mul_of_one_le_left (by positivity) (a1.trans pa)).trans bR
  have q1 : 1 ≤ ((2 : ℝ) ^ (s + 1) * A) * ((2 : ℝ) ^ (s + 1) * B) := one_le_mul_of_one_le_of_one_le (a1.trans pa) (b1.trans pb)
  have bnd : ∀ (l : List ℤ) (X : ℕ), l.length = 2 ^ (s + 1) → (∀ x ∈ l, |x| ≤ X) → ∀ j < 2 ^ (s + 1), |(l.getD j 0 : ℝ)| ≤ X := by
    intro l X hl hX j hj
    rw [List.getD_eq_getElem _ _ (by rw [hl]; exact hj)]
    have := hX _ (List.getElem_mem (by rw [hl]; exact hj))
    exact_mod_cast this
  have s9 : (s : ℝ) ≤ 9 := by exact_mod_cast (show s ≤ 9 by omega)
  have s0 : (0 : ℝ) ≤ s := by positivity
  have ap := fft_ap s (by omega) F a A (inRange_of _ a1 (pa.trans (qa.trans (by norm_num)))) ha (bnd a A ha.2.1 hA)
  have bp := fft_ap s (by omega) G b B (inRange_of _ b1 (pb.trans (qb.trans (by norm_num)))) hb (bnd b B hb.2.1 hB)
  have cr : 0 ≤ 8 * (s : ℝ) ∧ 8 * (s : ℝ) ≤ 2 ^ 20 := ⟨by positivity, by norm_num; linarith⟩
  have rr := inRange_of _ q1 (bR.trans (by norm_num))
  have mp := mul_ap s _ _ a b _ _ _ _ ap bp cr cr rr
  have key := (round_ap s (by omega) _ _ _ _ mp rr ⟨by positivity, by norm_num; linarith⟩ ?_ (bR.trans (by norm_num))).2
  · refine List.ext_getElem (by rw [List.length_map, List.length_range, length_negMul]) fun j hj1 hj2 => ?_
    have hj : j < 2 ^ (s + 1) := by rw [length_negMul] at hj2; exact hj2
    rw [List.getElem_map, List.getElem_range, (key j hj).1, List.getD_eq_getElem _ _ hj2]
  · have : (8 * (s : ℝ) + 8 * s + 6 + 14 * (s + 1)) * (((2 : ℝ) ^ (s + 1) * A) * ((2 : ℝ) ^ (s + 1) * B)) ≤ 290 * 2 ^ 43 := mul_le_mul (by linarith) bR (by positivity) (by norm_num)
    norm_num at *; linarith

/-- Non-vacuity: two polynomials of degree below 4, as words. -/
example : Holds (2 ^ 2) ([1, -2, 3, 0].map fun z => of (BitVec.ofInt 64 z)) [1, -2, 3, 0] := by
  refine ⟨rfl, rfl, fun j hj => ?_⟩
  have cases : j = 0 ∨ j = 1 ∨ j = 2 ∨ j = 3 := by omega
  have e : ∀ z : ℤ, |z| < 2 ^ 53 → int64 (BitVec.ofInt 64 z) = z → (z = 0 ∨ 1 ≤ |z|) → Ok (of (BitVec.ofInt 64 z)) ∧ val (of (BitVec.ofInt 64 z)) = z := by
    intro z hz hi hz2
    have r := C99_of (BitVec.ofInt 64 z)
    rw [hi] at r
    have hz' : |(z : ℝ)| < 2 ^ 53 := by exact_mod_cast hz
    have := rounded_fl _ _ r (hz'.trans (by gcongr <;> norm_num))
    rw [this.2]
    refine ⟨this.1, fl_exact _ (is53_int z hz) ?_⟩
    rcases hz2 with h | h
    · left; rw [h]; simp
    · right
      have : (1 : ℝ) ≤ |(z : ℝ)| := by exact_mod_cast h
      refine le_trans ?_ this
      rw [show (-1022 : ℤ) = -((1022 : ℕ) : ℤ) by norm_num, zpow_neg, zpow_natCast]
      exact inv_le_one_of_one_le₀ (one_le_pow₀ (by norm_num))
  rcases cases with rfl | rfl | rfl | rfl
  · exact e 1 (by norm_num) (by decide) (.inr (by norm_num))
  · exact e (-2) (by norm_num) (by decide) (.inr (by norm_num))
  · exact e 3 (by norm_num) (by decide) (.inr (by norm_num))
  · exact e 0 (by norm_num) (by decide) (.inl rfl)

end Verif.CRef.Fft
