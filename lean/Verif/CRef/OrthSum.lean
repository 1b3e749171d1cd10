import Verif.CRef.OrthSlot

/-! # The computed norm, in terms of the transforms it is computed from -/

namespace Verif.CRef.Orth

open Verif.CRef.Fpr Verif.CRef.Fft

/-! ## The sum of squares -/

theorem fold_close (r1 r2 : List W) (n : ℕ) (hn : n ≤ 1024) (B : ℝ) (hB : 1 / 2 ^ 40 ≤ B) (hB2 : B ≤ 2 ^ 80) (h : ∑ j ∈ Finset.range n, (val r1[j]! ^ 2 + val r2[j]! ^ 2) ≤ B)
    (hb : ∀ j < n, val r1[j]! ^ 2 ≤ 2 ^ 100 ∧ val r2[j]! ^ 2 ≤ 2 ^ 100) : ∀ m ≤ n,
    Ok ((List.range m).foldl (fun acc u => add (add acc (sqr r1[u]!)) (sqr r2[u]!)) fprZero) ∧
    |val ((List.range m).foldl (fun acc u => add (add acc (sqr r1[u]!)) (sqr r2[u]!)) fprZero) - ∑ j ∈ Finset.range m, (val r1[j]! ^ 2 + val r2[j]! ^ 2)| ≤ m * (4 * (uu * B)) := by
  have u0 := uu_pos
  have e0 := eta_pos
  have un := uu_num
  have B0 : 0 < B := lt_of_lt_of_le (by norm_num) hB
  have uB : 0 < uu * B := by positivity
  have et : eta ≤ uu * B / 1000 := by
    have := mul_le_mul_of_nonneg_left hB u0.le
    have := eta_tiny
    norm_num at *
    linarith
  have uBs : 1024 * (4 * (uu * B)) ≤ B / 1000 := by rw [un]; norm_num; linarith
  intro m
  induction m with
  | zero =>
    intro _
    rw [List.range_zero, List.foldl_nil, Finset.range_zero, Finset.sum_empty, C100_exact.2.1]
    exact ⟨by unfold Ok expo mant; decide, by simp⟩
  | succ m ih =>
    intro hm
    obtain ⟨o, c⟩ := ih (by omega)
    rw [List.range_succ, List.foldl_append, List.foldl_cons, List.foldl_nil, Finset.sum_range_succ]
    generalize (List.range m).foldl (fun acc u => add (add acc (sqr r1[u]!)) (sqr r2[u]!)) fprZero = acc at *
    have part : ∑ j ∈ Finset.range (m + 1), (val r1[j]! ^ 2 + val r2[j]! ^ 2) ≤ B :=
      (Finset.sum_le_sum_of_subset_of_nonneg (Finset.range_mono hm) fun i _ _ => by positivity).trans h
    rw [Finset.sum_range_succ] at part
    have S0 : 0 ≤ ∑ j ∈ Finset.range m, (val r1[j]! ^ 2 + val r2[j]! ^ 2) := Finset.sum_nonneg fun i _ => by positivity
    generalize ∑ j ∈ Finset.range m, (val r1[j]! ^ 2 + val r2[j]! ^ 2) = S at *
    obtain ⟨b1, b2⟩ := hb m (by omega)
    obtain ⟨o1, c1⟩ := sq_close r1[m]! b1
    obtain ⟨o2, c2⟩ := sq_close r2[m]! b2
    have x0 := sq_nonneg (val r1[m]!)
    have y0 := sq_nonneg (val r2[m]!)
    generalize val r1[m]! ^ 2 = X at *
    generalize val r2[m]! ^ 2 = Y at *
    have m1 : (m : ℝ) ≤ 1024 := by exact_mod_cast (by omega : m ≤ 1024)
    have mB : (m : ℝ) * (4 * (uu * B)) ≤ 1024 * (4 * (uu * B)) := mul_le_mul_of_nonneg_right m1 (by linarith)
    have uX : uu * X ≤ X / 1000 := by rw [un]; norm_num; linarith
    have uY : uu * Y ≤ Y / 1000 := by rw [un]; norm_num; linarith
    have es : eta ≤ B / 1000 := by linarith
    obtain ⟨l1, l2⟩ := abs_le.1 c
    obtain ⟨l3, l4⟩ := abs_le.1 c1
    obtain ⟨l5, l6⟩ := abs_le.1 c2
    have s1 : |val acc + val (sqr r1[m]!)| ≤ 102 / 100 * B := by rw [abs_le]; constructor <;> linarith
    obtain ⟨o3, c3⟩ := rd _ _ (C99_add acc (sqr r1[m]!) o o1) (s1.trans (by norm_num at *; linarith))
    generalize add acc (sqr r1[m]!) = acc2 at *
    have us1 := mul_le_mul_of_nonneg_left s1 u0.le
    obtain ⟨l7, l8⟩ := abs_le.1 c3
    have uBB : uu * B ≤ B / 1000 := by rw [un]; norm_num; linarith
    have s2 : |val acc2 + val (sqr r2[m]!)| ≤ 104 / 100 * B := by rw [abs_le]; constructor <;> linarith
    obtain ⟨o4, c4⟩ := rd _ _ (C99_add acc2 (sqr r2[m]!) o3 o2) (s2.trans (by norm_num at *; linarith))
    have us2 := mul_le_mul_of_nonneg_left s2 u0.le
    obtain ⟨l9, l10⟩ := abs_le.1 c4
    have uXY : uu * (X + Y) ≤ uu * B := mul_le_mul_of_nonneg_left (by linarith) u0.le
    refine ⟨o4, ?_⟩
    push_cast
    rw [abs_le]
    constructor <;> linarith

/-! ## The rows -/

/-- Slots of the array that is transformed back. -/
theorem row_slot (s : ℕ) (rt rt3 : List W) : (polyMulAutoadjFft (polyMulconst (polyAdjFft rt (s + 1)) fprQ (s + 1)) rt3 (s + 1)).length = 2 ^ (s + 1) ∧ ∀ p < 2 ^ s,
    slot (polyMulAutoadjFft (polyMulconst (polyAdjFft rt (s + 1)) fprQ (s + 1)) rt3 (s + 1)) (2 ^ s) p =
      (mul (mul (slot rt (2 ^ s) p).1 fprQ) rt3[p]!, mul (mul (neg (slot rt (2 ^ s) p).2) fprQ) rt3[p]!) := by
  have e : 2 ^ (s + 1) / 2 = 2 ^ s := by rw [pow_succ]; omega
  unfold polyMulAutoadjFft
  obtain ⟨l, h⟩ := ofSlots_slot s fun u => (mul (slot (polyMulconst (polyAdjFft rt (s + 1)) fprQ (s + 1)) (2 ^ (s + 1) / 2) u).1 rt3[u]!,
    mul (slot (polyMulconst (polyAdjFft rt (s + 1)) fprQ (s + 1)) (2 ^ (s + 1) / 2) u).2 rt3[u]!)
  refine ⟨l, fun p hp => ?_⟩
  rw [h p hp, e]
  have q1 : p < 2 ^ (s + 1) := by rw [pow_succ]; omega
  have q2 : p + 2 ^ s < 2 ^ (s + 1) := by rw [pow_succ]; omega
  have k : slot (polyMulconst (polyAdjFft rt (s + 1)) fprQ (s + 1)) (2 ^ s) p = (mul (slot rt (2 ^ s) p).1 fprQ, mul (neg (slot rt (2 ^ s) p).2) fprQ) := by
    unfold slot polyMulconst polyAdjFft
    rw [map_get _ _ p q1, map_get _ _ _ q2, map_get _ _ p q1, map_get _ _ _ q2, e, if_pos hp, if_neg (by omega)]
  rw [k]

theorem invnorm_get (s : ℕ) (a b : List W) (p : ℕ) (hp : p < 2 ^ s) : (polyInvnorm2Fft a b (s + 1))[p]! =
    inv (add (add (sqr (slot a (2 ^ s) p).1) (sqr (slot a (2 ^ s) p).2)) (add (sqr (slot b (2 ^ s) p).1) (sqr (slot b (2 ^ s) p).2))) := by
  have e : 2 ^ (s + 1) / 2 = 2 ^ s := by rw [pow_succ]; omega
  unfold polyInvnorm2Fft
  rw [e, map_get _ _ p hp]

/-- `|a|^2 + |b|^2` in slot `p`. -/
noncomputable def den (s : ℕ) (a b : List W) (p : ℕ) : ℝ := ‖cv (slot a (2 ^ s) p)‖ ^ 2 + ‖cv (slot b (2 ^ s) p)‖ ^ 2

/-- The squared norm of the vector for given denominators. -/
noncomputable def total (s : ℕ) (D : ℕ → ℝ) : ℝ := 12289 ^ 2 / 2 ^ s * ∑ p ∈ Finset.range (2 ^ s), 1 / D p

theorem total_ge (s : ℕ) (D : ℕ → ℝ) (h : ∀ p < 2 ^ s, 0 < D p) (p : ℕ) (hp : p < 2 ^ s) : 12289 ^ 2 / D p ≤ 2 ^ s * total s D := by
  unfold total
  have := Finset.single_le_sum (f := fun p => 1 / D p) (fun i hi => (one_div_pos.2 (h i (Finset.mem_range.1 hi))).le) (Finset.mem_range.2 hp)
  have e : (2 : ℝ) ^ s * (12289 ^ 2 / 2 ^ s * ∑ p ∈ Finset.range (2 ^ s), 1 / D p) = 12289 ^ 2 * ∑ p ∈ Finset.range (2 ^ s), 1 / D p := by field_simp
  rw [e, div_eq_mul_one_div]
  exact mul_le_mul_of_nonneg_left this (by norm_num)

theorem total_le (s : ℕ) (D : ℕ → ℝ) (c : ℝ) (h : ∀ p < 2 ^ s, 1 / D p ≤ c) : total s D ≤ 12289 ^ 2 * c := by
  unfold total
  have := Finset.sum_le_sum (f := fun p => 1 / D p) (g := fun _ => c) (s := Finset.range (2 ^ s)) fun p hp => h p (Finset.mem_range.1 hp)
  rw [Finset.sum_const, Finset.card_range, nsmul_eq_mul] at this
  have t := mul_le_mul_of_nonneg_left this (show (0 : ℝ) ≤ 12289 ^ 2 / 2 ^ s by positivity)
  refine t.trans (le_of_eq ?_)
  push_cast
  field_simp

/-- One row: the computed words are close to real numbers whose transform is `q conj(a) / D`. -/
theorem row_close (s : ℕ) (hs : s ≤ 9) (a rt3 : List W) (D : ℕ → ℝ) (hD1 : ∀ p < 2 ^ s, 1 / 2 ^ 42 ≤ D p) (hD2 : ∀ p < 2 ^ s, D p ≤ 2 ^ 42)
    (ha : ∀ p < 2 ^ s, ‖cv (slot a (2 ^ s) p)‖ ^ 2 ≤ D p) (hi : ∀ p < 2 ^ s, |val rt3[p]! * D p - 1| ≤ 8 * uu) :
    ∃ R : ℕ → ℝ, (∀ p < 2 ^ s, pev (s + 1) R (root (s + 1) p) = 12289 * (starRingEnd ℂ) (cv (slot a (2 ^ s) p)) / (D p : ℂ)) ∧
      ∀ j < 2 ^ (s + 1), |val (ifft (polyMulAutoadjFft (polyMulconst (polyAdjFft a (s + 1)) fprQ (s + 1)) rt3 (s + 1)) (s + 1))[j]! - R j| ≤ 163 * uu * Real.sqrt (2 ^ s * total s D) := by
  have u0 := uu_pos
  have un := uu_num
  have D0 : ∀ p < 2 ^ s, 0 < D p := fun p hp => lt_of_lt_of_le (by norm_num) (hD1 p hp)
  obtain ⟨R, hR⟩ := interpolate s fun p => 12289 * (starRingEnd ℂ) (cv (slot a (2 ^ s) p)) / (D p : ℂ)
  refine ⟨R, hR, ?_⟩
  obtain ⟨M, hM⟩ : ∃ M, Real.sqrt (2 ^ s * total s D) = M := ⟨_, rfl⟩
  rw [hM]
  have big : ∀ p < 2 ^ s, 12289 / Real.sqrt (D p) ≤ M := by
    intro p hp
    rw [← hM]
    refine Real.le_sqrt_of_sq_le ?_
    rw [div_pow, Real.sq_sqrt (D0 p hp).le]
    exact total_ge s D D0 p hp
  have m0 : 1 / 2 ^ 10 ≤ M := by
    refine le_trans ?_ (big 0 (by positivity))
    have : Real.sqrt (D 0) ≤ 2 ^ 21 := by rw [Real.sqrt_le_left (by norm_num)]; exact (hD2 0 (by positivity)).trans (by norm_num)
    have p := Real.sqrt_pos.2 (D0 0 (by positivity))
    rw [div_le_div_iff₀ (by norm_num) p]; norm_num at *; linarith
  have m1 : M ≤ 2 ^ 50 := by
    rw [← hM, Real.sqrt_le_left (by norm_num)]
    have t := total_le s D (2 ^ 42) fun p hp => by
      rw [div_le_iff₀ (D0 p hp)]
      have := hD1 p hp
      norm_num at *; linarith
    have p9 : (2 : ℝ) ^ s ≤ 2 ^ 9 := pow_le_pow_right₀ (by norm_num) hs
    refine (mul_le_mul p9 t ?_ (by norm_num)).trans (by norm_num)
    unfold total
    exact mul_nonneg (by positivity) (Finset.sum_nonneg fun p hp => (one_div_pos.2 (D0 p (Finset.mem_range.1 hp))).le)
  have rM : InRange M := by
    constructor
    · refine le_trans ?_ m0
      rw [show ((2 : ℝ) ^ (-900 : ℤ)) = 1 / 2 ^ 900 by rw [zpow_neg, one_div]; norm_cast]
      exact one_div_le_one_div_of_le (by positivity) (pow_le_pow_right₀ (by norm_num) (by norm_num))
    · exact m1.trans (pow_le_pow_right₀ (by norm_num) (by norm_num))
  obtain ⟨l, sl⟩ := row_slot s a rt3
  have M0 : 0 < M := lt_of_lt_of_le (by norm_num) m0
  have key := ifft_close s hs _ l R (23 * uu * M) M rM (by rw [un]; norm_num; linarith) (fun p hp => by
    rw [sl p hp, hR p hp]
    obtain ⟨g, c⟩ := slot_close (slot a (2 ^ s) p) rt3[p]! (D p) (hD1 p hp) (hD2 p hp) (ha p hp) (hi p hp)
    exact ⟨g, c.trans (mul_le_mul_of_nonneg_left (big p hp) (by positivity))⟩) (fun p hp => by
    rw [hR p hp, norm_div, norm_mul, RCLike.norm_conj, Complex.norm_real, Real.norm_of_nonneg (D0 p hp).le]
    refine le_trans ?_ (big p hp)
    have sp := Real.sqrt_pos.2 (D0 p hp)
    rw [div_le_div_iff₀ (D0 p hp) sp, show ‖(12289 : ℂ)‖ = 12289 by simp]
    have h1 : ‖cv (slot a (2 ^ s) p)‖ ≤ Real.sqrt (D p) := Real.le_sqrt_of_sq_le (ha p hp)
    have h2 := mul_le_mul_of_nonneg_right h1 sp.le
    rw [Real.mul_self_sqrt (D0 p hp).le] at h2
    linarith)
  intro j hj
  refine (key j hj).2.trans ?_
  have s10 : ((s + 1 : ℕ) : ℝ) ≤ 10 := by exact_mod_cast (by omega : s + 1 ≤ 10)
  have := mul_le_mul_of_nonneg_right s10 (show 0 ≤ 14 * (uu * M) by positivity)
  linarith

/-- Entry by entry. -/
theorem sq_diff (x R k M T N : ℝ) (hk : 0 ≤ k) (hk1 : k * N ≤ 1) (hM : M * M = N * T) (hN : 0 < N) (hM0 : 0 ≤ M) (hT : 0 ≤ T) (h : |x - R| ≤ k * M) : |x ^ 2 - R ^ 2| ≤ k * (2 * T + N * R ^ 2) := by
  have e : x ^ 2 - R ^ 2 = (x - R) * (2 * R + (x - R)) := by ring
  rw [e, abs_mul]
  have a1 : |2 * R + (x - R)| ≤ 2 * |R| + k * M := by
    refine (abs_add_le _ _).trans ?_
    rw [abs_mul, abs_of_pos (show (0 : ℝ) < 2 by norm_num)]
    linarith
  refine (mul_le_mul h a1 (abs_nonneg _) (mul_nonneg hk hM0)).trans ?_
  have am : 2 * |R| * M ≤ T + N * R ^ 2 := by
    have := sq_nonneg (N * |R| - M)
    have e2 : (N * |R| - M) ^ 2 = N * (N * R ^ 2 - 2 * |R| * M + T) := by
      rw [sub_sq, mul_pow, sq_abs, show M ^ 2 = N * T by rw [sq, hM]]; ring
    rw [e2] at this
    have := nonneg_of_mul_nonneg_right this hN
    linarith
  have k1 : k * M * (k * M) ≤ k * T := by
    have : k * M * (k * M) = k * (k * N * T) := by rw [show k * M * (k * M) = k * k * (M * M) by ring, hM]; ring
    rw [this]
    refine mul_le_mul_of_nonneg_left ?_ hk
    have := mul_le_mul_of_nonneg_right hk1 hT
    linarith
  have k2 := mul_le_mul_of_nonneg_left am hk
  linarith

/-- The norm computed from the arrays `a` and `b`. -/
theorem norm_close (s : ℕ) (hs : s ≤ 9) (a b : List W) (h1 : ∀ p < 2 ^ s, 1 / 2 ^ 42 ≤ den s a b p) (h2 : ∀ p < 2 ^ s, den s a b p ≤ 2 ^ 42) (w : W)
    (hw : w = bnormOf (ifft (polyMulAutoadjFft (polyMulconst (polyAdjFft a (s + 1)) fprQ (s + 1)) (polyInvnorm2Fft a b (s + 1)) (s + 1)) (s + 1))
      (ifft (polyMulAutoadjFft (polyMulconst (polyAdjFft b (s + 1)) fprQ (s + 1)) (polyInvnorm2Fft a b (s + 1)) (s + 1)) (s + 1)) (s + 1)) :
    Ok w ∧ |val w - total s (den s a b)| ≤ total s (den s a b) / 2 ^ 32 := by
  have u0 := uu_pos
  have un := uu_num
  have D0 : ∀ p < 2 ^ s, 0 < den s a b p := fun p hp => lt_of_lt_of_le (by norm_num) (h1 p hp)
  have hi : ∀ p < 2 ^ s, |val (polyInvnorm2Fft a b (s + 1))[p]! * den s a b p - 1| ≤ 8 * uu := by
    intro p hp
    rw [invnorm_get s a b p hp]
    exact (inv_slot _ _ _ rfl (h1 p hp) (h2 p hp)).2
  obtain ⟨R1, p1, c1⟩ := row_close s hs a _ _ h1 h2 (fun p _ => le_add_of_nonneg_right (sq_nonneg _)) hi
  obtain ⟨R2, p2, c2⟩ := row_close s hs b _ _ h1 h2 (fun p _ => le_add_of_nonneg_left (sq_nonneg _)) hi
  generalize ifft (polyMulAutoadjFft (polyMulconst (polyAdjFft a (s + 1)) fprQ (s + 1)) (polyInvnorm2Fft a b (s + 1)) (s + 1)) (s + 1) = r1 at *
  generalize ifft (polyMulAutoadjFft (polyMulconst (polyAdjFft b (s + 1)) fprQ (s + 1)) (polyInvnorm2Fft a b (s + 1)) (s + 1)) (s + 1) = r2 at *
  -- Parseval
  have P : ∑ j ∈ Finset.range (2 ^ (s + 1)), R1 j ^ 2 + ∑ j ∈ Finset.range (2 ^ (s + 1)), R2 j ^ 2 = total s (den s a b) := by
    have q1 := parseval s R1
    have q2 := parseval s R2
    have e : ∑ p ∈ Finset.range (2 ^ s), ‖pev (s + 1) R1 (root (s + 1) p)‖ ^ 2 + ∑ p ∈ Finset.range (2 ^ s), ‖pev (s + 1) R2 (root (s + 1) p)‖ ^ 2 = 12289 ^ 2 * ∑ p ∈ Finset.range (2 ^ s), 1 / den s a b p := by
      rw [← Finset.sum_add_distrib, Finset.mul_sum]
      refine Finset.sum_congr rfl fun p hp => ?_
      have hp := Finset.mem_range.1 hp
      rw [p1 p hp, p2 p hp]
      have d := D0 p hp
      have n1 : ∀ z : ℂ, ‖12289 * (starRingEnd ℂ) z / (den s a b p : ℂ)‖ ^ 2 = 12289 ^ 2 * ‖z‖ ^ 2 / den s a b p ^ 2 := by
        intro z
        rw [norm_div, norm_mul, RCLike.norm_conj, Complex.norm_real, Real.norm_of_nonneg d.le, show ‖(12289 : ℂ)‖ = 12289 by simp]
        ring
      rw [n1, n1, ← add_div, ← mul_add]
      rw [show ‖cv (slot a (2 ^ s) p)‖ ^ 2 + ‖cv (slot b (2 ^ s) p)‖ ^ 2 = den s a b p from rfl]
      field_simp
    rw [q1, q2, ← mul_add] at e
    unfold total
    have : (2 : ℝ) ^ s ≠ 0 := by positivity
    field_simp
    linarith
  have T1 : 1 / 2 ^ 40 ≤ total s (den s a b) := by
    have t := total_ge s _ D0 0 (by positivity)
    have p9 : (2 : ℝ) ^ s ≤ 2 ^ 9 := pow_le_pow_right₀ (by norm_num) hs
    have l : (12289 : ℝ) ^ 2 / 2 ^ 42 ≤ 12289 ^ 2 / den s a b 0 := div_le_div_of_nonneg_left (by norm_num) (D0 0 (by positivity)) (h2 0 (by positivity))
    have T0 : 0 ≤ total s (den s a b) := by rw [← P]; positivity
    have := mul_le_mul_of_nonneg_right p9 T0
    norm_num at *
    linarith
  have T2 : total s (den s a b) ≤ 2 ^ 70 := by
    refine (total_le s _ (2 ^ 42) fun p hp => ?_).trans (by norm_num)
    rw [div_le_iff₀ (D0 p hp)]
    have := h1 p hp
    norm_num at *; linarith
  generalize hT : total s (den s a b) = T at *
  have T0 : 0 < T := lt_of_lt_of_le (by norm_num) T1
  obtain ⟨N, hN⟩ : ∃ N : ℝ, (2 : ℝ) ^ s = N := ⟨_, rfl⟩
  have N0 : 0 < N := by rw [← hN]; positivity
  have N9 : N ≤ 512 := by rw [← hN]; exact (pow_le_pow_right₀ (by norm_num) hs).trans (by norm_num)
  have hM : Real.sqrt (N * T) * Real.sqrt (N * T) = N * T := Real.mul_self_sqrt (by positivity)
  rw [hN] at c1 c2
  have M0 : 0 ≤ Real.sqrt (N * T) := Real.sqrt_nonneg _
  generalize Real.sqrt (N * T) = M at *
  have k0 : 0 ≤ 163 * uu := by positivity
  have kN : 163 * uu * N ≤ 1 := by rw [un]; norm_num; linarith
  have d1 := fun j hj => sq_diff _ _ _ _ _ _ k0 kN hM N0 M0 T0.le (c1 j hj)
  have d2 := fun j hj => sq_diff _ _ _ _ _ _ k0 kN hM N0 M0 T0.le (c2 j hj)
  obtain ⟨k, hk⟩ : ∃ k, 163 * uu = k := ⟨_, rfl⟩
  rw [hk] at k0 kN d1 d2
  have s1 : ∀ (r : List W) (R : ℕ → ℝ), (∀ j < 2 ^ (s + 1), |val r[j]! ^ 2 - R j ^ 2| ≤ k * (2 * T + N * R j ^ 2)) →
      |∑ j ∈ Finset.range (2 ^ (s + 1)), val r[j]! ^ 2 - ∑ j ∈ Finset.range (2 ^ (s + 1)), R j ^ 2| ≤ k * (4 * N * T) + k * (N * ∑ j ∈ Finset.range (2 ^ (s + 1)), R j ^ 2) := by
    intro r R h
    rw [← Finset.sum_sub_distrib]
    refine (Finset.abs_sum_le_sum_abs _ _).trans ((Finset.sum_le_sum fun j hj => h j (Finset.mem_range.1 hj)).trans (le_of_eq ?_))
    rw [← Finset.mul_sum, Finset.sum_add_distrib, Finset.sum_const, Finset.card_range, nsmul_eq_mul, ← Finset.mul_sum]
    push_cast
    rw [pow_succ, hN]
    ring
  have e1 := s1 r1 R1 d1
  have e2 := s1 r2 R2 d2
  have kb : k * N ≤ 3 / 4 / 2 ^ 36 := by
    have : k * N ≤ k * 512 := mul_le_mul_of_nonneg_left N9 k0
    rw [← hk, un] at this ⊢
    exact this.trans (by norm_num)
  have q1 : 0 ≤ ∑ j ∈ Finset.range (2 ^ (s + 1)), R1 j ^ 2 := by positivity
  have q2 : 0 ≤ ∑ j ∈ Finset.range (2 ^ (s + 1)), R2 j ^ 2 := by positivity
  have rle : ∀ (R : ℕ → ℝ), ∑ j ∈ Finset.range (2 ^ (s + 1)), R j ^ 2 ≤ T → ∀ j < 2 ^ (s + 1), R j ^ 2 ≤ T := fun R h j hj =>
    (Finset.single_le_sum (f := fun j => R j ^ 2) (fun i _ => sq_nonneg _) (Finset.mem_range.2 hj)).trans h
  have g1 := rle R1 (by linarith)
  have g2 := rle R2 (by linarith)
  have kT : k * N * T ≤ 3 / 4 / 2 ^ 36 * T := mul_le_mul_of_nonneg_right kb T0.le
  have ks : k ≤ 1 / 2 ^ 20 := by rw [← hk, un]; norm_num
  have bound : ∀ (x R : ℝ), |x ^ 2 - R ^ 2| ≤ k * (2 * T + N * R ^ 2) → R ^ 2 ≤ T → x ^ 2 ≤ 2 ^ 100 := by
    intro x R h hR
    have a := (abs_le.1 h).2
    have b : k * N * R ^ 2 ≤ k * N * T := mul_le_mul_of_nonneg_left hR (by positivity)
    have c : k * T ≤ 1 / 2 ^ 20 * T := mul_le_mul_of_nonneg_right ks T0.le
    norm_num at *
    linarith
  have sumS : |∑ j ∈ Finset.range (2 ^ (s + 1)), (val r1[j]! ^ 2 + val r2[j]! ^ 2) - T| ≤ 9 * (k * N * T) := by
    rw [Finset.sum_add_distrib]
    obtain ⟨x1, x2⟩ := abs_le.1 e1
    obtain ⟨y1, y2⟩ := abs_le.1 e2
    have : k * (N * ∑ j ∈ Finset.range (2 ^ (s + 1)), R1 j ^ 2) + k * (N * ∑ j ∈ Finset.range (2 ^ (s + 1)), R2 j ^ 2) = k * N * T := by rw [← P]; ring
    rw [abs_le]
    constructor <;> linarith
  obtain ⟨z1, z2⟩ := abs_le.1 sumS
  have n10 : 2 ^ (s + 1) ≤ 1024 := (Nat.pow_le_pow_right (by norm_num) (by omega : s + 1 ≤ 10)).trans (by norm_num)
  have fin := fold_close r1 r2 (2 ^ (s + 1)) n10 (2 * T) (by linarith) (by norm_num at *; linarith) (by norm_num at *; linarith)
    (fun j hj => ⟨bound _ _ (d1 j hj) (g1 j hj), bound _ _ (d2 j hj) (g2 j hj)⟩) _ le_rfl
  rw [hw]
  unfold bnormOf
  refine ⟨fin.1, ?_⟩
  have f2 := fin.2
  have nn : ((2 ^ (s + 1) : ℕ) : ℝ) ≤ 1024 := by exact_mod_cast n10
  have f3 := mul_le_mul_of_nonneg_right nn (show 0 ≤ 4 * (uu * (2 * T)) by positivity)
  have f4 : 1024 * (4 * (uu * (2 * T))) = T / 2 ^ 40 := by rw [un]; norm_num; ring
  rw [f4] at f3
  obtain ⟨f5, f6⟩ := abs_le.1 (f2.trans f3)
  rw [abs_le]
  norm_num at *
  constructor <;> linarith

end Verif.CRef.Orth
