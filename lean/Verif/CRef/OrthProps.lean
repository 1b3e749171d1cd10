import Verif.CRef.OrthSum
import Verif.CRef.OrthSpec
import Verif.CRef.SignDynExact
import Verif.CRef.KgProps

/-! # C107: the test of the orthogonalized norm in key generation -/

namespace Verif.CRef.Orth

open Verif.CRef.Fpr Verif.CRef.Fft Verif.CRef.SignDyn Verif.Ring Verif.CRef Verif.CRef.Kg

/-! ## Roots -/

theorem conj_pev (k : ℕ) (f : ℕ → ℝ) (w : ℂ) : pev k f ((starRingEnd ℂ) w) = (starRingEnd ℂ) (pev k f w) := by
  unfold pev
  rw [map_sum]
  refine Finset.sum_congr rfl fun j _ => ?_
  rw [map_mul, map_pow, Complex.conj_ofReal]

/-- Every root is one of the slots or the conjugate of one. -/
theorem roots_all : ∀ (s : ℕ) (w : ℂ), w ^ 2 ^ (s + 1) = -1 → ∃ p < 2 ^ s, w = root (s + 1) p ∨ w = (starRingEnd ℂ) (root (s + 1) p)
  | 0, w, h => by
    refine ⟨0, by norm_num, ?_⟩
    have e : root 1 0 = Complex.I := by
      unfold root
      rw [show bitrev (1 - 1) 0 = 0 from rfl, show ((4 * 0 + 1 : ℕ) * Real.pi * Complex.I / 2 ^ 1 : ℂ) = Real.pi / 2 * Complex.I by push_cast; ring, Complex.exp_pi_div_two_mul_I]
    rw [zero_add, e, Complex.conj_I]
    rw [zero_add, pow_one] at h
    exact sq_eq_sq_iff_eq_or_eq_neg.1 (by rw [h, Complex.I_sq])
  | s + 1, w, h => by
    obtain ⟨p, hp, c⟩ := roots_all s (w ^ 2) (by rw [← pow_mul, ← pow_succ', h])
    have hp2 : ∀ b < 2, 2 * p + b < 2 ^ (s + 1) := fun b hb => by rw [pow_succ]; omega
    rcases c with c | c
    · rw [← gmE_root_sq s p hp] at c
      rcases sq_eq_sq_iff_eq_or_eq_neg.1 c with d | d
      · exact ⟨2 * p, hp2 0 (by norm_num), Or.inl (by rw [root_even s p hp, d])⟩
      · exact ⟨2 * p + 1, hp2 1 (by norm_num), Or.inl (by rw [root_odd s p hp, d])⟩
    · rw [← gmE_root_sq s p hp, map_pow] at c
      rcases sq_eq_sq_iff_eq_or_eq_neg.1 c with d | d
      · exact ⟨2 * p, hp2 0 (by norm_num), Or.inr (by rw [root_even s p hp, d])⟩
      · exact ⟨2 * p + 1, hp2 1 (by norm_num), Or.inr (by rw [root_odd s p hp, d, map_neg])⟩

theorem gram_conj (k : ℕ) (f g : List ℤ) (w : ℂ) : gramAt k f g ((starRingEnd ℂ) w) = gramAt k f g w := by
  unfold gramAt value
  rw [conj_pev, conj_pev, RCLike.norm_conj, RCLike.norm_conj]

theorem gram_nonneg (k : ℕ) (f g : List ℤ) (w : ℂ) : 0 ≤ gramAt k f g w := by unfold gramAt; positivity

/-- **C107** (the vector): where `f f* + g g*` has no zero, there is exactly one orthogonalized vector. -/
theorem C107_vector (k : ℕ) (h1 : 1 ≤ k) (f g : List ℤ) (h : ∀ w : ℂ, w ^ 2 ^ k = -1 → gramAt k f g w ≠ 0) :
    ∃ r1 r2, IsOrth k f g r1 r2 ∧ ∀ t1 t2, IsOrth k f g t1 t2 → ∀ j < 2 ^ k, t1 j = r1 j ∧ t2 j = r2 j := by
  obtain ⟨s, rfl⟩ : ∃ s, k = s + 1 := ⟨k - 1, by omega⟩
  obtain ⟨r1, e1⟩ := interpolate s fun p => 12289 * (starRingEnd ℂ) (value (s + 1) f (root (s + 1) p)) / (gramAt (s + 1) f g (root (s + 1) p) : ℂ)
  obtain ⟨r2, e2⟩ := interpolate s fun p => 12289 * (starRingEnd ℂ) (value (s + 1) g (root (s + 1) p)) / (gramAt (s + 1) f g (root (s + 1) p) : ℂ)
  have I : IsOrth (s + 1) f g r1 r2 := by
    intro w hw
    refine ⟨h w hw, ?_⟩
    obtain ⟨p, hp, rfl | rfl⟩ := roots_all s w hw
    · exact ⟨e1 p hp, e2 p hp⟩
    · rw [conj_pev, conj_pev, e1 p hp, e2 p hp, gram_conj]
      unfold value
      rw [conj_pev, conj_pev]
      constructor <;> rw [map_div₀, map_mul, Complex.conj_ofReal, show (starRingEnd ℂ) 12289 = 12289 from Complex.conj_ofReal 12289]
  refine ⟨r1, r2, I, fun t1 t2 ht j hj => ⟨?_, ?_⟩⟩
  · exact determined s t1 r1 (fun p _ => by rw [(ht _ (root_pow _ p)).2.1, (I _ (root_pow _ p)).2.1]) j hj
  · exact determined s t2 r2 (fun p _ => by rw [(ht _ (root_pow _ p)).2.2, (I _ (root_pow _ p)).2.2]) j hj

/-- Parseval for the orthogonalized vector. -/
theorem sqNorm_eq (s : ℕ) (f g : List ℤ) (r1 r2 : ℕ → ℝ) (h : IsOrth (s + 1) f g r1 r2) : sqNorm (s + 1) r1 r2 = total s fun p => gramAt (s + 1) f g (root (s + 1) p) := by
  unfold sqNorm
  rw [Finset.sum_add_distrib]
  have q1 := parseval s r1
  have q2 := parseval s r2
  have e : ∑ p ∈ Finset.range (2 ^ s), ‖pev (s + 1) r1 (root (s + 1) p)‖ ^ 2 + ∑ p ∈ Finset.range (2 ^ s), ‖pev (s + 1) r2 (root (s + 1) p)‖ ^ 2 =
      12289 ^ 2 * ∑ p ∈ Finset.range (2 ^ s), 1 / gramAt (s + 1) f g (root (s + 1) p) := by
    rw [← Finset.sum_add_distrib, Finset.mul_sum]
    refine Finset.sum_congr rfl fun p hp => ?_
    obtain ⟨d, a, b⟩ := h _ (root_pow _ p)
    rw [a, b]
    have d0 := gram_nonneg (s + 1) f g (root (s + 1) p)
    have n1 : ∀ z : ℂ, ‖12289 * (starRingEnd ℂ) z / (gramAt (s + 1) f g (root (s + 1) p) : ℂ)‖ ^ 2 = 12289 ^ 2 * ‖z‖ ^ 2 / gramAt (s + 1) f g (root (s + 1) p) ^ 2 := by
      intro z
      rw [norm_div, norm_mul, RCLike.norm_conj, Complex.norm_real, Real.norm_of_nonneg d0, show ‖(12289 : ℂ)‖ = 12289 by simp]
      ring
    rw [n1, n1, ← add_div, ← mul_add, show ‖value (s + 1) f (root (s + 1) p)‖ ^ 2 + ‖value (s + 1) g (root (s + 1) p)‖ ^ 2 = gramAt (s + 1) f g (root (s + 1) p) from rfl]
    field_simp
  rw [q1, q2, ← mul_add] at e
  unfold total
  have : (2 : ℝ) ^ s ≠ 0 := by positivity
  field_simp
  linarith

/-! ## Denominators -/

theorem sq_norm_diff (a b : ℂ) (e t : ℝ) (he : 0 ≤ e) (h : ‖a - b‖ ≤ e) (ht : ‖b‖ ≤ t) : |‖a‖ ^ 2 - ‖b‖ ^ 2| ≤ e * (2 * t + e) := by
  have d := (abs_norm_sub_norm_le a b).trans h
  rw [show ‖a‖ ^ 2 - ‖b‖ ^ 2 = (‖a‖ - ‖b‖) * (2 * ‖b‖ + (‖a‖ - ‖b‖)) by ring, abs_mul]
  refine mul_le_mul d ?_ (abs_nonneg _) he
  refine (abs_add_le _ _).trans (add_le_add ?_ d)
  rw [abs_of_nonneg (by positivity)]
  linarith

theorem den_close (a b F G : ℂ) (e d : ℝ) (he : 0 ≤ e) (he2 : e ≤ 9 / 8 / 2 ^ 33) (ha : ‖a - F‖ ≤ e) (hb : ‖b - G‖ ≤ e) (hd : 1 / 2 ^ 20 ≤ d) (hD : d ^ 2 ≤ ‖F‖ ^ 2 + ‖G‖ ^ 2) :
    99 / 100 * (‖F‖ ^ 2 + ‖G‖ ^ 2) ≤ ‖a‖ ^ 2 + ‖b‖ ^ 2 ∧ ‖a‖ ^ 2 + ‖b‖ ^ 2 ≤ 2 * (‖F‖ ^ 2 + ‖G‖ ^ 2) ∧
    |1 / (‖a‖ ^ 2 + ‖b‖ ^ 2) - 1 / (‖F‖ ^ 2 + ‖G‖ ^ 2)| ≤ 1 / (2 ^ 30 * d) * (1 / (‖F‖ ^ 2 + ‖G‖ ^ 2)) := by
  have d0 : 0 < d := lt_of_lt_of_le (by norm_num) hd
  obtain ⟨D, hD'⟩ : ∃ D, ‖F‖ ^ 2 + ‖G‖ ^ 2 = D := ⟨_, rfl⟩
  have D0 : 0 < D := by rw [← hD']; exact lt_of_lt_of_le (by positivity) hD
  obtain ⟨t, ht⟩ : ∃ t, Real.sqrt D = t := ⟨_, rfl⟩
  have tt : t * t = D := by rw [← ht]; exact Real.mul_self_sqrt D0.le
  have t0 : 0 < t := by rw [← ht]; exact Real.sqrt_pos.2 D0
  have td : d ≤ t := by rw [← ht]; exact Real.le_sqrt_of_sq_le (by rw [← hD']; exact hD)
  have F1 : ‖F‖ ≤ t := by rw [← ht]; exact Real.le_sqrt_of_sq_le (by rw [← hD']; nlinarith [sq_nonneg ‖G‖])
  have G1 : ‖G‖ ≤ t := by rw [← ht]; exact Real.le_sqrt_of_sq_le (by rw [← hD']; nlinarith [sq_nonneg ‖F‖])
  have f := sq_norm_diff a F e t he ha F1
  have g := sq_norm_diff b G e t he hb G1
  rw [hD']
  obtain ⟨E, hE⟩ : ∃ E, ‖a‖ ^ 2 + ‖b‖ ^ 2 = E := ⟨_, rfl⟩
  rw [hE]
  have et : e ≤ t / 1000 := by norm_num at *; linarith
  have dif : |E - D| ≤ 402 / 100 * e * t := by
    have : E - D = (‖a‖ ^ 2 - ‖F‖ ^ 2) + (‖b‖ ^ 2 - ‖G‖ ^ 2) := by rw [← hE, ← hD']; ring
    rw [this]
    refine (abs_add_le _ _).trans ?_
    have := mul_le_mul_of_nonneg_left et he
    nlinarith
  have small : 402 / 100 * e * t ≤ D / 100 := by
    rw [← tt]
    have := mul_le_mul_of_nonneg_right et t0.le
    nlinarith
  obtain ⟨x1, x2⟩ := abs_le.1 dif
  have E1 : 99 / 100 * D ≤ E := by linarith
  have E0 : 0 < E := by linarith
  refine ⟨E1, by linarith, ?_⟩
  rw [div_sub_div _ _ E0.ne' D0.ne', one_mul, mul_one, abs_div, abs_of_pos (mul_pos E0 D0), abs_sub_comm, div_le_iff₀ (mul_pos E0 D0)]
  have r : 1 / (2 ^ 30 * d) * (1 / D) * (E * D) = E / (2 ^ 30 * d) := by field_simp
  rw [r, le_div_iff₀ (by positivity)]
  refine (mul_le_mul_of_nonneg_right dif (by positivity)).trans ?_
  have s1 : 402 / 100 * e * t * (2 ^ 30 * d) ≤ 402 / 100 * (9 / 8 / 2 ^ 33) * t * (2 ^ 30 * t) := by
    refine mul_le_mul (mul_le_mul_of_nonneg_right (mul_le_mul_of_nonneg_left he2 (by norm_num)) t0.le) (mul_le_mul_of_nonneg_left td (by norm_num)) (by positivity) (by positivity)
  have s2 : 402 / 100 * (9 / 8 / 2 ^ 33) * t * (2 ^ 30 * t) = 402 / 100 * (9 / 8 / 8) * D := by rw [← tt]; norm_num; ring
  rw [s2] at s1
  norm_num at *
  linarith

theorem table (s : ℕ) (hs : s ≤ 9) : (2 : ℝ) ^ (s + 1) * ((2 ^ (maxFgBits[s + 1]! - 1) - 1 : ℤ) : ℝ) ≤ 2 ^ 14 ∧ (0 : ℤ) ≤ 2 ^ (maxFgBits[s + 1]! - 1) - 1 ∧ (1 : ℤ) ≤ 2 ^ (maxFgBits[s + 1]! - 1) - 1 ∧
    (2 ^ (maxFgBits[s + 1]! - 1) - 1 : ℤ) ≤ 127 := by
  interval_cases s <;> simp [maxFgBits] <;> norm_num

/-- The transform of a small polynomial. -/
theorem fft_small (s : ℕ) (hs : s ≤ 9) (f : List ℤ) (hl : f.length = 2 ^ (s + 1)) (hf : Within (2 ^ (maxFgBits[s + 1]! - 1) - 1) f) : ∀ p < 2 ^ s,
    ‖cv (slot (fft (toFpr f (s + 1)) (s + 1)) (2 ^ s) p) - value (s + 1) f (root (s + 1) p)‖ ≤ 9 / 8 / 2 ^ 33 ∧ ‖value (s + 1) f (root (s + 1) p)‖ ≤ 2 ^ 14 := by
  obtain ⟨t1, t2, t3, t4⟩ := table s hs
  generalize (2 ^ (maxFgBits[s + 1]! - 1) - 1 : ℤ) = B at *
  have hb : ∀ x ∈ f, |x| ≤ B := fun x hx => abs_le.2 (hf x hx)
  have B1 : (1 : ℝ) ≤ B := by exact_mod_cast t3
  have B2 : (B : ℝ) ≤ 127 := by exact_mod_cast t4
  have A := fft_ap s hs _ f (B : ℝ) (inRange_of _ B1 (B2.trans (by norm_num))) (toFpr_holds _ f hl B (by omega) t2 hb) fun j _ => by exact_mod_cast getD_bound f B t2 hb j
  intro p hp
  refine ⟨(A.2.2.1 p hp).2.trans ?_, (A.2.2.2 p hp).trans t1⟩
  have s9 : (s : ℝ) ≤ 9 := by exact_mod_cast hs
  have u0 := uu_pos
  have m1 : 8 * (s : ℝ) * (uu * (2 ^ (s + 1) * B)) ≤ 8 * 9 * (uu * 2 ^ 14) := by
    refine mul_le_mul (by linarith) (mul_le_mul_of_nonneg_left t1 u0.le) (by positivity) (by norm_num)
  refine m1.trans ?_
  unfold uu
  norm_num

/-- **C107** (accuracy): for `f` and `g` with the coefficients key generation lets through, if `f f* + g g*` is at least `d^2` at every root (`2^-20 ≤ d ≤ 2`), the computed norm is the squared norm of the orthogonalized vector up to the factor `1 ± 2^-29/d`. -/
theorem C107_close (k : ℕ) (h1 : 1 ≤ k) (h2 : k ≤ 10) (f g : List ℤ) (lf : f.length = 2 ^ k) (lg : g.length = 2 ^ k) (hf : Within (2 ^ (maxFgBits[k]! - 1) - 1) f) (hg : Within (2 ^ (maxFgBits[k]! - 1) - 1) g)
    (r1 r2 : ℕ → ℝ) (hr : IsOrth k f g r1 r2) (d : ℝ) (hd : 1 / 2 ^ 20 ≤ d) (hd2 : d ≤ 2) (hD : ∀ w : ℂ, w ^ 2 ^ k = -1 → d ^ 2 ≤ gramAt k f g w) :
    Ok (bnorm f g k) ∧ |val (bnorm f g k) - sqNorm k r1 r2| ≤ sqNorm k r1 r2 / (2 ^ 29 * d) := by
  obtain ⟨s, rfl⟩ : ∃ s, k = s + 1 := ⟨k - 1, by omega⟩
  have hs : s ≤ 9 := by omega
  have d0 : 0 < d := lt_of_lt_of_le (by norm_num) hd
  have F := fft_small s hs f lf hf
  have G := fft_small s hs g lg hg
  rw [sqNorm_eq s f g r1 r2 hr]
  unfold bnorm orthVec
  dsimp only
  generalize fft (toFpr f (s + 1)) (s + 1) = a at *
  generalize fft (toFpr g (s + 1)) (s + 1) = b at *
  have P : ∀ p < 2 ^ s, 99 / 100 * gramAt (s + 1) f g (root (s + 1) p) ≤ den s a b p ∧ den s a b p ≤ 2 * gramAt (s + 1) f g (root (s + 1) p) ∧
      |1 / den s a b p - 1 / gramAt (s + 1) f g (root (s + 1) p)| ≤ 1 / (2 ^ 30 * d) * (1 / gramAt (s + 1) f g (root (s + 1) p)) := fun p hp =>
    den_close _ _ _ _ _ d (by norm_num) le_rfl (F p hp).1 (G p hp).1 hd (hD _ (root_pow _ p))
  have lo : ∀ p < 2 ^ s, 1 / 2 ^ 42 ≤ den s a b p := by
    intro p hp
    have q := (P p hp).1
    have r := hD _ (root_pow (s + 1) p)
    have : (1 / 2 ^ 20 : ℝ) ^ 2 ≤ d ^ 2 := pow_le_pow_left₀ (by norm_num) hd 2
    norm_num at *
    linarith
  have hi : ∀ p < 2 ^ s, den s a b p ≤ 2 ^ 42 := by
    intro p hp
    refine (P p hp).2.1.trans ?_
    have x := pow_le_pow_left₀ (norm_nonneg _) (F p hp).2 2
    have y := pow_le_pow_left₀ (norm_nonneg _) (G p hp).2 2
    unfold gramAt
    norm_num at *
    linarith
  obtain ⟨o, c⟩ := norm_close s hs a b lo hi _ rfl
  refine ⟨o, ?_⟩
  have T : |total s (den s a b) - total s fun p => gramAt (s + 1) f g (root (s + 1) p)| ≤ 1 / (2 ^ 30 * d) * total s fun p => gramAt (s + 1) f g (root (s + 1) p) := by
    unfold total
    rw [← mul_sub, ← Finset.sum_sub_distrib, abs_mul, abs_of_nonneg (show (0 : ℝ) ≤ 12289 ^ 2 / 2 ^ s by positivity), mul_left_comm, Finset.mul_sum]
    refine mul_le_mul_of_nonneg_left ?_ (by positivity)
    exact (Finset.abs_sum_le_sum_abs _ _).trans (Finset.sum_le_sum fun p hp => (P p (Finset.mem_range.1 hp)).2.2)
  have X0 : 0 ≤ total s fun p => gramAt (s + 1) f g (root (s + 1) p) := by
    unfold total
    exact mul_nonneg (by positivity) (Finset.sum_nonneg fun p _ => one_div_nonneg.2 (gram_nonneg _ _ _ _))
  generalize (total s fun p => gramAt (s + 1) f g (root (s + 1) p)) = X at *
  generalize total s (den s a b) = Y at *
  generalize val _ = v at *
  obtain ⟨i, hi⟩ : ∃ i, 1 / d = i := ⟨_, rfl⟩
  have i0 : 1 / 2 ≤ i := by rw [← hi]; exact one_div_le_one_div_of_le d0 hd2
  have i1 : i ≤ 2 ^ 20 := by rw [← hi, div_le_iff₀ d0]; norm_num at *; linarith
  have e1 : 1 / (2 ^ 30 * d) * X = 1 / 2 ^ 30 * (i * X) := by rw [← hi]; field_simp
  have e2 : X / (2 ^ 29 * d) = 1 / 2 ^ 29 * (i * X) := by rw [← hi]; field_simp
  rw [e1] at T
  rw [e2]
  have m1 := mul_le_mul_of_nonneg_right i0 X0
  have m2 := mul_le_mul_of_nonneg_right i1 X0
  obtain ⟨t1, t2⟩ := abs_le.1 T
  obtain ⟨c1, c2⟩ := abs_le.1 c
  rw [abs_le]
  norm_num at *
  constructor <;> linarith

/-! ## The test -/

theorem max_val : |val fprBnormMax - 16822.4121| ≤ 1 / 2 ^ 38 := by
  rw [val_word fprBnormMax 0 1037 120509800426924 (fields_dec _ _ _ _ (by decide)) (by norm_num)]
  norm_num [abs_le]

theorem max_ok : Ok fprBnormMax := by unfold Ok expo mant; decide

/-- The test compares the numbers. -/
theorem test_iff (k : ℕ) (f g : List ℤ) (o : Ok (bnorm f g k)) : orthTest k f g = true ↔ val (bnorm f g k) < val fprBnormMax := by
  unfold orthTest
  rw [C99_lt _ _ o max_ok]
  have h := (abs_le.1 max_val).1
  constructor
  · rintro (c | ⟨_, c, _⟩)
    · exact c
    · rw [c] at h; norm_num at h
  · exact Or.inl

/-- A short orthogonalized vector keeps `f f* + g g*` away from zero. -/
theorem gram_ge (k : ℕ) (h1 : 1 ≤ k) (h2 : k ≤ 10) (f g : List ℤ) (r1 r2 : ℕ → ℝ) (hr : IsOrth k f g r1 r2) (hn : sqNorm k r1 r2 ≤ 17000) : ∀ w : ℂ, w ^ 2 ^ k = -1 → 4 ≤ gramAt k f g w := by
  obtain ⟨s, rfl⟩ : ∃ s, k = s + 1 := ⟨k - 1, by omega⟩
  have pos : ∀ w : ℂ, w ^ 2 ^ (s + 1) = -1 → 0 < gramAt (s + 1) f g w := fun w hw => lt_of_le_of_ne (gram_nonneg _ _ _ _) (Ne.symm (hr w hw).1)
  have main : ∀ p < 2 ^ s, 4 ≤ gramAt (s + 1) f g (root (s + 1) p) := by
    intro p hp
    have t := total_ge s (fun p => gramAt (s + 1) f g (root (s + 1) p)) (fun p _ => pos _ (root_pow _ _)) p hp
    rw [← sqNorm_eq s f g r1 r2 hr] at t
    have p9 : (2 : ℝ) ^ s ≤ 2 ^ 9 := pow_le_pow_right₀ (by norm_num) (by omega)
    have q0 : 0 ≤ sqNorm (s + 1) r1 r2 := by unfold sqNorm; positivity
    have t2 := t.trans (mul_le_mul p9 hn q0 (by norm_num))
    have g0 := pos _ (root_pow (s + 1) p)
    rw [div_le_iff₀ g0] at t2
    norm_num at *
    linarith
  intro w hw
  obtain ⟨p, hp, rfl | rfl⟩ := roots_all s w hw
  · exact main p hp
  · rw [gram_conj]; exact main p hp

/-- **C107** (soundness): if `f f* + g g*` is at least `2^-40` at every root, a pair that passes the test has an orthogonalized vector of squared norm at most `(1.17)^2 q = 16822.4121`, up to `2^-15`. -/
theorem C107_sound (k : ℕ) (h1 : 1 ≤ k) (h2 : k ≤ 10) (f g : List ℤ) (lf : f.length = 2 ^ k) (lg : g.length = 2 ^ k) (hf : Within (2 ^ (maxFgBits[k]! - 1) - 1) f) (hg : Within (2 ^ (maxFgBits[k]! - 1) - 1) g)
    (r1 r2 : ℕ → ℝ) (hr : IsOrth k f g r1 r2) (hD : ∀ w : ℂ, w ^ 2 ^ k = -1 → 1 / 2 ^ 40 ≤ gramAt k f g w) (ht : orthTest k f g = true) : sqNorm k r1 r2 ≤ 16822.4121 + 1 / 2 ^ 15 := by
  obtain ⟨o, c⟩ := C107_close k h1 h2 f g lf lg hf hg r1 r2 hr (1 / 2 ^ 20) le_rfl (by norm_num) fun w hw => le_trans (le_of_eq (by norm_num)) (hD w hw)
  have v := (test_iff k f g o).1 ht
  have m := (abs_le.1 max_val).2
  have q0 : 0 ≤ sqNorm k r1 r2 := by unfold sqNorm; positivity
  have b1 := (abs_le.1 c).1
  have big : sqNorm k r1 r2 ≤ 17000 := by norm_num at *; linarith
  have D4 := gram_ge k h1 h2 f g r1 r2 hr big
  obtain ⟨_, c⟩ := C107_close k h1 h2 f g lf lg hf hg r1 r2 hr 2 (by norm_num) le_rfl fun w hw => le_trans (le_of_eq (by norm_num)) (D4 w hw)
  have b2 := (abs_le.1 c).1
  norm_num at *
  linarith

/-- **C107** (completeness): a pair whose orthogonalized vector has squared norm at most `16822.4121 - 2^-15` passes the test. -/
theorem C107_complete (k : ℕ) (h1 : 1 ≤ k) (h2 : k ≤ 10) (f g : List ℤ) (lf : f.length = 2 ^ k) (lg : g.length = 2 ^ k) (hf : Within (2 ^ (maxFgBits[k]! - 1) - 1) f) (hg : Within (2 ^ (maxFgBits[k]! - 1) - 1) g)
    (r1 r2 : ℕ → ℝ) (hr : IsOrth k f g r1 r2) (hn : sqNorm k r1 r2 ≤ 16822.4121 - 1 / 2 ^ 15) : orthTest k f g = true := by
  have D4 := gram_ge k h1 h2 f g r1 r2 hr (hn.trans (by norm_num))
  obtain ⟨o, c⟩ := C107_close k h1 h2 f g lf lg hf hg r1 r2 hr 2 (by norm_num) le_rfl fun w hw => le_trans (le_of_eq (by norm_num)) (D4 w hw)
  rw [test_iff k f g o]
  have m := (abs_le.1 max_val).1
  have b2 := (abs_le.1 c).2
  norm_num at *
  linarith

/-! ## Keys -/

/-- The value of a product in `Z[x]/(x^n + 1)`. -/
theorem value_ev (k : ℕ) (f : List ℤ) (h : f.length = 2 ^ k) (w : ℂ) : value k f w = ev w f := pev_ev k f h w

/-- The NTRU equation at a root. -/
theorem ntru_at (k : ℕ) (f g F G : List ℤ) (h : IsNtru (2 ^ k) f g F G) (w : ℂ) (hw : w ^ 2 ^ k = -1) : value k f w * value k G w - value k g w * value k F w = 12289 := by
  obtain ⟨lf, lg, lF, lG, e⟩ := h
  rw [value_ev k f lf, value_ev k g lg, value_ev k F lF, value_ev k G lG, ← ev_negMul w _ hw f G lf lG, ← ev_negMul w _ hw g F lg lF]
  rw [← pev_ev k _ (length_negMul _ _ _), ← pev_ev k _ (length_negMul _ _ _)]
  have : ∀ j < 2 ^ k, (((negMul (2 ^ k) f G).getD j 0 : ℤ) : ℝ) = ((negMul (2 ^ k) g F).getD j 0 : ℝ) + (if j = 0 then (12289 : ℝ) else 0) := by
    intro j hj
    have := e j hj
    have : (negMul (2 ^ k) f G).getD j 0 = (negMul (2 ^ k) g F).getD j 0 + if j = 0 then 12289 else 0 := by linarith
    rw [this]
    split <;> push_cast <;> rfl
  rw [pev_congr k _ _ w this, pev_add, add_sub_cancel_left]
  unfold pev
  rw [Finset.sum_eq_single 0 (fun j _ hj => by dsimp only; rw [if_neg hj]; simp) (fun h => absurd (Finset.mem_range.2 (by positivity)) h)]
  simp

/-- A solution of the NTRU equation with coefficients in `[-127, 127]` keeps `f f* + g g*` above `2^-9`. -/
theorem ntru_gram (k : ℕ) (h2 : k ≤ 10) (f g F G : List ℤ) (h : IsNtru (2 ^ k) f g F G) (hF : Within 127 F) (hG : Within 127 G) (w : ℂ) (hw : w ^ 2 ^ k = -1) : 1 / 2 ^ 9 ≤ gramAt k f g w := by
  have e := ntru_at k f g F G h w hw
  have nw : ‖w‖ = 1 := by
    have := congrArg norm hw
    rw [norm_pow, norm_neg, norm_one] at this
    exact (pow_eq_one_iff_of_nonneg (norm_nonneg _) (by positivity)).1 this
  have n2 : (2 : ℝ) ^ k ≤ 2 ^ 10 := pow_le_pow_right₀ (by norm_num) h2
  have bd : ∀ a : List ℤ, Within 127 a → ‖value k a w‖ ≤ 2 ^ 10 * 127 := by
    intro a ha
    refine (pev_le k _ 127 (fun j _ => ?_) w nw).trans (mul_le_mul_of_nonneg_right n2 (by norm_num))
    exact_mod_cast getD_bound a 127 (by norm_num) (fun x hx => abs_le.2 (ha x hx)) j
  have bF := bd F hF
  have bG := bd G hG
  unfold gramAt
  generalize value k f w = x at *
  generalize value k g w = y at *
  generalize value k F w = u at *
  generalize value k G w = v at *
  have t : 12289 ≤ ‖x‖ * ‖v‖ + ‖y‖ * ‖u‖ := by
    have := norm_sub_le (x * v) (y * u)
    rw [e, norm_mul, norm_mul] at this
    simpa using this
  have t2 : 12289 ≤ (‖x‖ + ‖y‖) * (2 ^ 10 * 127) := by
    have a := mul_le_mul_of_nonneg_left bG (norm_nonneg x)
    have b := mul_le_mul_of_nonneg_left bF (norm_nonneg y)
    linarith
  have t3 : 9 / 100 ≤ ‖x‖ + ‖y‖ := by norm_num at *; linarith
  have := sq_nonneg (‖x‖ - ‖y‖)
  have t4 := pow_le_pow_left₀ (by norm_num) t3 2
  norm_num at *
  nlinarith

/-- Whatever key generation returns has passed the test. -/
theorem keygen_orth {σ : Type} (next : σ → ℕ × σ) (solver : Solver) (mem : List ℕ) (orth : List ℤ → List ℤ → Bool) (k draws : ℕ) (h1 : 1 ≤ k) (hk : k ≤ 10)
    (fuel : ℕ) (st : σ) (f g F G : List ℤ) (h : List ℕ) (hr : keygen next solver mem orth k draws fuel st = some (f, g, F, G, h)) : orth f g = true := by
  induction fuel generalizing st with
  | zero => cases hr
  | succ fuel ih =>
    rw [keygen_succ] at hr
    cases d1 : mkgaussPoly next k draws [] 0 st with
    | none => rw [d1] at hr; cases hr
    | some a =>
      obtain ⟨f', st1⟩ := a
      rw [d1] at hr
      dsimp only at hr
      cases d2 : mkgaussPoly next k draws [] 0 st1 with
      | none => rw [d2] at hr; cases hr
      | some b =>
        obtain ⟨g', st2⟩ := b
        rw [d2] at hr
        dsimp only at hr
        obtain ⟨l1, b1, o1⟩ := C90_mkgauss next k draws st f' st1 d1
        obtain ⟨l2, b2, o2⟩ := C90_mkgauss next k draws st1 g' st2 d2
        cases hj : judge solver mem orth k f' g' with
        | none => rw [hj] at hr; exact ih st2 hr
        | some r =>
          obtain ⟨F', G', h'⟩ := r
          rw [hj] at hr
          simp only [Option.some.injEq, Prod.mk.injEq] at hr
          obtain ⟨rfl, rfl, rfl, rfl, rfl⟩ := hr
          exact ((judge_iff solver mem orth k h1 hk f' g' l1 l2 b1 b2 _ _ _).1 hj).2.2.2.1

/-- **C107** (keys): for every degree `2^k` from 2 to 1024, every source of random words and every solver, the pair `(f, g)` that key generation returns has an orthogonalized vector, and its squared norm is at most `(1.17)^2 q`, up to `2^-15`. -/
theorem C107_keygen {σ : Type} (next : σ → ℕ × σ) (solver : Solver) (mem : List ℕ) (k draws : ℕ) (h1 : 1 ≤ k) (hk : k ≤ 10) (hm : mem.length = 2 ^ k)
    (fuel : ℕ) (st : σ) (f g F G : List ℤ) (h : List ℕ) (hr : keygen next solver mem (orthTest k) k draws fuel st = some (f, g, F, G, h)) :
    ∃ r1 r2, IsOrth k f g r1 r2 ∧ sqNorm k r1 r2 ≤ 16822.4121 + 1 / 2 ^ 15 := by
  have key := C90_keygen next solver mem (orthTest k) k draws h1 hk hm fuel st f g F G h hr
  have t := keygen_orth next solver mem (orthTest k) k draws h1 hk fuel st f g F G h hr
  have D := ntru_gram k hk f g F G key.ntru key.FBound key.GBound
  obtain ⟨r1, r2, I, _⟩ := C107_vector k h1 f g fun w hw => ne_of_gt (lt_of_lt_of_le (by norm_num) (D w hw))
  exact ⟨r1, r2, I, C107_sound k h1 hk f g key.ntru.1 key.ntru.2.1 key.fBound key.gBound r1 r2 I (fun w hw => le_trans (by norm_num) (D w hw)) t⟩

end Verif.CRef.Orth
