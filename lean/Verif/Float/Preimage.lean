import Verif.Float.Tree
import Verif.Falcon.Lemmas

/-! # `sample_preimage` in floating point: the last products, sums, inverse transforms and roundings -/

namespace Verif.PyFloat

open Verif.FFT (exactRoots exactRoots_law toK evalAt interleaveZ inDict Shaped Mat)
open Verif.Falcon (padd pmul psub pneg)

/-- `fft` returns a list of the same length, whatever the coefficients and the rounding. -/
theorem fft_total (fl : ℝ → ℝ) : ∀ (k : ℕ), k < 10 → ∀ (fuel : ℕ), k < fuel → ∀ (f : List ℂ), f.length = 2 ^ (k + 1) → ∃ V, fftLoop fl fuel f = .ok V ∧ V.length = 2 ^ (k + 1) := by
  intro k
  induction k with
  | zero =>
    intro _ fuel hfu f hl
    obtain ⟨fuel, rfl⟩ : ∃ j, fuel = j + 1 := ⟨fuel - 1, by omega⟩
    unfold fftLoop
    rw [if_neg (by rw [hl]; norm_num), if_pos (by rw [hl]; norm_num)]
    exact ⟨_, rfl, rfl⟩
  | succ k ih =>
    intro hk fuel hfu f hl
    obtain ⟨fuel, rfl⟩ : ∃ j, fuel = j + 1 := ⟨fuel - 1, by omega⟩
    have p := pow_succ 2 (k + 1)
    have p1 := pow_succ 2 k
    have p0 : 0 < 2 ^ k := by positivity
    unfold fftLoop
    rw [if_pos (by omega)]
    obtain ⟨a, ea, la⟩ := ih (by omega) fuel (by omega) (split f).1 (by unfold split; simp; omega)
    obtain ⟨b, eb, lb⟩ := ih (by omega) fuel (by omega) (split f).2 (by unfold split; simp; omega)
    rw [ea]
    dsimp only
    rw [eb]
    dsimp only
    exact mergeFft_ok fl (by omega) a b la lb

theorem fft_len (fl : ℝ → ℝ) {k : ℕ} (h1 : 1 ≤ k) (h2 : k ≤ 10) (f : List ℤ) (hl : f.length = 2 ^ k) : ∃ V, fft fl f = .ok V ∧ V.length = 2 ^ k := by
  obtain ⟨k, rfl⟩ : ∃ j, k = j + 1 := ⟨k - 1, by omega⟩
  have : k + 1 < 2 ^ (k + 1) := Nat.lt_two_pow_self
  exact fft_total fl k (by omega) (f.length + 1) (by rw [hl]; omega) _ (by simpa using hl)

theorem pyRound_eq (x : ℝ) (n : ℤ) (h : |x - n| < 1 / 2) : pyRound x = n := by
  obtain ⟨a, b⟩ := abs_lt.1 h
  unfold pyRound
  rcases le_or_gt (n : ℝ) x with c | c
  · have : ⌊x⌋ = n := Int.floor_eq_iff.2 ⟨c, by linarith⟩
    rw [this, if_pos (by linarith)]
  · have : ⌊x⌋ = n - 1 := Int.floor_eq_iff.2 ⟨by push_cast; linarith, by push_cast; linarith⟩
    rw [this, if_neg (by push_cast; linarith), if_pos (by push_cast; linarith)]
    ring

variable {fl : ℝ → ℝ} (hf : Rounds fl)

include hf in
/-- One slot of a product of two transforms. -/
theorem slot_mul (a b x y : ℂ) (P Q e : ℝ) (hP : 1 ≤ P) (hQ : 1 ≤ Q) (hPQ : P * Q ≤ 2 ^ 40) (e0 : 0 ≤ e) (e1 : e ≤ 4 / 10 ^ 14) (hx : ‖x‖ ≤ P) (hy : ‖y‖ ≤ Q) (ha : ‖a - x‖ ≤ e * P) (hb : ‖b - y‖ ≤ e * Q) :
    ‖cmul fl a b - x * y‖ ≤ 82 / 10 ^ 15 * (P * Q) := by
  have pq : 1 ≤ P * Q := one_le_mul_of_one_le_of_one_le hP hQ
  have na : ‖a‖ ≤ (1 + e) * P := by
    have := norm_add_le (a - x) x
    rw [sub_add_cancel] at this
    linarith
  have nb : ‖b‖ ≤ (1 + e) * Q := by
    have := norm_add_le (b - y) y
    rw [sub_add_cancel] at this
    linarith
  have nab : ‖a‖ * ‖b‖ ≤ (1 + 1 / 10 ^ 12) * (P * Q) := by
    have s1 := mul_le_mul na nb (norm_nonneg _) (by positivity)
    have s2 : (1 + e) * (1 + e) ≤ 1 + 1 / 10 ^ 12 := by
      have := mul_le_mul e1 e1 e0 (by norm_num)
      norm_num at this e1 ⊢
      linarith
    have s3 := mul_le_mul_of_nonneg_right s2 (by linarith : 0 ≤ P * Q)
    calc ‖a‖ * ‖b‖ ≤ _ := s1
      _ = (1 + e) * (1 + e) * (P * Q) := by ring
      _ ≤ _ := s3
  have big : ‖a‖ * ‖b‖ ≤ 2 ^ 199 := nab.trans ((mul_le_mul_of_nonneg_left hPQ (by norm_num)).trans (by norm_num))
  have c := cmul_close hf a b big
  have d : ‖a * b - x * y‖ ≤ 801 / 10 ^ 16 * (P * Q) := by
    have e2 : a * b - x * y = (a - x) * b + x * (b - y) := by ring
    have s1 : ‖(a - x) * b‖ ≤ e * P * ((1 + e) * Q) := by rw [norm_mul]; exact mul_le_mul ha nb (norm_nonneg _) (by positivity)
    have s2 : ‖x * (b - y)‖ ≤ P * (e * Q) := by rw [norm_mul]; exact mul_le_mul hx hb (norm_nonneg _) (by linarith)
    have s3 : e * (1 + e) + e ≤ 801 / 10 ^ 16 := by
      have := mul_le_mul e1 e1 e0 (by norm_num)
      norm_num at this e1 ⊢
      linarith
    have s4 := mul_le_mul_of_nonneg_right s3 (by linarith : 0 ≤ P * Q)
    rw [e2]
    refine (norm_add_le _ _).trans ?_
    have s5 : (e * (1 + e) + e) * (P * Q) = e * P * ((1 + e) * Q) + P * (e * Q) := by ring
    linarith only [s1, s2, s4, s5]
  have hh := (h_small (P * Q) pq).2
  have uu := (u_mul _ (mul_nonneg (norm_nonneg a) (norm_nonneg b))).2
  have t : cmul fl a b - x * y = (cmul fl a b - a * b) + (a * b - x * y) := by ring
  rw [t]
  refine (norm_add_le _ _).trans ?_
  generalize h = hv at *
  generalize u * (‖a‖ * ‖b‖) = uv at *
  norm_num at c d hh uu nab ⊢
  linarith only [c, d, hh, uu, nab, pq]

include hf in
/-- One slot of the sum of two such products. -/
theorem slot_sum (a b x y : ℂ) (P : ℝ) (hP : 1 ≤ P) (hP2 : P ≤ 2 ^ 40) (hx : ‖x‖ ≤ P) (hy : ‖y‖ ≤ P) (ha : ‖a - x‖ ≤ 82 / 10 ^ 15 * P) (hb : ‖b - y‖ ≤ 82 / 10 ^ 15 * P) :
    ‖cadd fl a b - (x + y)‖ ≤ 166 / 10 ^ 15 * P := by
  have n1 : ‖a + b‖ ≤ 3 * P := by
    have e : a + b = ((a - x) + (b - y)) + (x + y) := by ring
    rw [e]
    refine (norm_add_le _ _).trans ?_
    have s1 := norm_add_le (a - x) (b - y)
    have s2 := norm_add_le x y
    norm_num at ha hb
    linarith only [s1, s2, ha, hb, hx, hy, hP]
  have c := cadd_close hf a b (n1.trans ((mul_le_mul_of_nonneg_left hP2 (by norm_num)).trans (by norm_num)))
  have hh := (h_small P hP).2
  have uu := (u_mul _ (norm_nonneg (a + b))).2
  have e : cadd fl a b - (x + y) = (cadd fl a b - (a + b)) + ((a - x) + (b - y)) := by ring
  rw [e]
  refine (norm_add_le _ _).trans ?_
  have s1 := norm_add_le (a - x) (b - y)
  generalize h = hv at *
  generalize u * ‖a + b‖ = uv at *
  norm_num at c hh uu ha hb ⊢
  linarith only [c, hh, uu, ha, hb, s1, n1, hP]

theorem root_pow {k : ℕ} (h1 : 1 ≤ k) (h2 : k ≤ 10) (i : ℕ) (hi : i < 2 ^ k) : exactRoots (2 ^ k) i ^ 2 ^ k = -1 := exactRoots_law.pow h1 h2 i hi

theorem val_comb {k : ℕ} (h1 : 1 ≤ k) (h2 : k ≤ 10) {z0 z1 a c : List ℤ} (l0 : z0.length = 2 ^ k) (l1 : z1.length = 2 ^ k) (la : a.length = 2 ^ k) (lc : c.length = 2 ^ k) (i : ℕ) (hi : i < 2 ^ k) :
    val k (padd (pmul (2 ^ k) z0 a) (pmul (2 ^ k) z1 c)) i = val k z0 i * val k a i + val k z1 i * val k c i := by
  unfold val
  rw [FFT.toK_padd exactRoots_law (Falcon.length_pmul _ _ _) (Falcon.length_pmul _ _ _), Falcon.pmul_eq, Falcon.pmul_eq, FFT.evalAt_toK_negMul (root_pow h1 h2 i hi) l0 la, FFT.evalAt_toK_negMul (root_pow h1 h2 i hi) l1 lc]

include hf in
/-- `[int(round(elt)) for elt in ifft(add_fft(mul_fft(z0, a), mul_fft(z1, c)))]` is the exact integer combination. -/
theorem combine {k : ℕ} (h1 : 1 ≤ k) (h2 : k ≤ 10) (A Z : ℝ) (hA : 1 ≤ A) (hZ : 1 ≤ Z) (hP : 4 ^ k * A * Z ≤ 2 ^ 40) {z0 z1 a c : List ℤ} (l0 : z0.length = 2 ^ k) (l1 : z1.length = 2 ^ k)
    (la : a.length = 2 ^ k) (lc : c.length = 2 ^ k) (b0 : ∀ x ∈ z0, |(x : ℝ)| ≤ Z) (b1 : ∀ x ∈ z1, |(x : ℝ)| ≤ Z) (ba : ∀ x ∈ a, |(x : ℝ)| ≤ A) (bc : ∀ x ∈ c, |(x : ℝ)| ≤ A)
    {Z0 Z1 VA VC : List ℂ} (H0 : Ap k Z0 z0 (ce k * (2 ^ k * Z))) (H1 : Ap k Z1 z1 (ce k * (2 ^ k * Z))) (HA : Ap k VA a (ce k * (2 ^ k * A))) (HC : Ap k VC c (ce k * (2 ^ k * A))) :
    ∃ X Y V v, mulFft fl Z0 VA = .ok X ∧ mulFft fl Z1 VC = .ok Y ∧ add fl X Y = .ok V ∧ ifft fl V = .ok v ∧ v.map pyRound = padd (pmul (2 ^ k) z0 a) (pmul (2 ^ k) z1 c) := by
  have kk : (1 : ℝ) ≤ 2 ^ k := one_le_pow₀ (by norm_num)
  have pz : 1 ≤ 2 ^ k * Z := one_le_mul_of_one_le_of_one_le kk hZ
  have pa : 1 ≤ 2 ^ k * A := one_le_mul_of_one_le_of_one_le kk hA
  have pe : 2 ^ k * Z * (2 ^ k * A) = 4 ^ k * A * Z := by
    have : (4 : ℝ) ^ k = 2 ^ k * 2 ^ k := by rw [← mul_pow]; norm_num
    rw [this]; ring
  obtain ⟨P, hPe⟩ : ∃ P, 4 ^ k * A * Z = P := ⟨_, rfl⟩
  rw [hPe] at pe hP
  have p1 : 1 ≤ P := by rw [← pe]; exact one_le_mul_of_one_le_of_one_le pz pa
  obtain ⟨c0, c1⟩ := ce_le h2
  obtain ⟨X, hX⟩ : ∃ X, X = (List.range (2 ^ k)).map fun i => cmul fl (Z0.getD i 0) (VA.getD i 0) := ⟨_, rfl⟩
  obtain ⟨Y, hY⟩ : ∃ Y, Y = (List.range (2 ^ k)).map fun i => cmul fl (Z1.getD i 0) (VC.getD i 0) := ⟨_, rfl⟩
  obtain ⟨V, hV⟩ : ∃ V, V = (List.range (2 ^ k)).map fun i => cadd fl (X.getD i 0) (Y.getD i 0) := ⟨_, rfl⟩
  obtain ⟨t, ht⟩ : ∃ t, t = padd (pmul (2 ^ k) z0 a) (pmul (2 ^ k) z1 c) := ⟨_, rfl⟩
  have lt : t.length = 2 ^ k := by rw [ht]; simp [padd]
  have vz0 := fun i hi => val_le h2 l0 Z (by linarith) b0 i hi
  have vz1 := fun i hi => val_le h2 l1 Z (by linarith) b1 i hi
  have va := fun i hi => val_le h2 la A (by linarith) ba i hi
  have vc := fun i hi => val_le h2 lc A (by linarith) bc i hi
  have nx : ∀ i < 2 ^ k, ‖val k z0 i * val k a i‖ ≤ P := fun i hi => by
    rw [norm_mul, ← pe]; exact mul_le_mul (vz0 i hi) (va i hi) (norm_nonneg _) (by linarith)
  have ny : ∀ i < 2 ^ k, ‖val k z1 i * val k c i‖ ≤ P := fun i hi => by
    rw [norm_mul, ← pe]; exact mul_le_mul (vz1 i hi) (vc i hi) (norm_nonneg _) (by linarith)
  have HV : Ap k V t (166 / 10 ^ 15 * P) := by
    refine ⟨by rw [hV]; simp, fun i hi => ?_⟩
    rw [hV, get_map 0 _ _ _ hi, hX, get_map 0 _ _ _ hi, hY, get_map 0 _ _ _ hi, ht, val_comb h1 h2 l0 l1 la lc i hi]
    refine slot_sum hf _ _ _ _ P p1 hP (nx i hi) (ny i hi) ?_ ?_
    · rw [← pe]
      exact slot_mul hf _ _ _ _ (2 ^ k * Z) (2 ^ k * A) (ce k) pz pa (by rw [pe]; exact hP) c0 c1 (vz0 i hi) (va i hi) (H0.2 i hi) (HA.2 i hi)
    · rw [← pe]
      exact slot_mul hf _ _ _ _ (2 ^ k * Z) (2 ^ k * A) (ce k) pz pa (by rw [pe]; exact hP) c0 c1 (vz1 i hi) (vc i hi) (H1.2 i hi) (HC.2 i hi)
  have vt : ∀ i < 2 ^ k, ‖val k t i‖ ≤ 2 * P := fun i hi => by
    rw [ht, val_comb h1 h2 l0 l1 la lc i hi]
    exact (norm_add_le _ _).trans (by linarith [nx i hi, ny i hi])
  obtain ⟨j, rfl⟩ : ∃ j, k = j + 1 := ⟨k - 1, by omega⟩
  have jj : (j : ℝ) ≤ 9 := by exact_mod_cast (show j ≤ 9 by omega)
  have bound : 166 / 10 ^ 15 * P + j * (75 / 10 ^ 16 * (2 * P)) ≤ 302 / 10 ^ 15 * P := by
    have := mul_le_mul_of_nonneg_right jj (by positivity : 0 ≤ 75 / 10 ^ 16 * (2 * P))
    norm_num at this ⊢
    linarith only [this, p1]
  have lj : j < 2 ^ (j + 1) := by
    have : j + 1 < 2 ^ (j + 1) := Nat.lt_two_pow_self
    omega
  obtain ⟨v, ev, lv, hv⟩ := ifft_loop hf (2 * P) (by linarith) (by
      have : (2 : ℝ) * 2 ^ 40 ≤ 2 ^ 100 := by norm_num
      linarith) j (by omega) (V.length + 1) (by rw [HV.1]; omega) V t _ lt HV vt (by
      refine bound.trans ?_
      norm_num
      linarith only [p1])
  refine ⟨X, Y, V, v, (mulFft_ok fl _ _ _ H0.1 HA.1).trans (by rw [← hX]), (mulFft_ok fl _ _ _ H1.1 HC.1).trans (by rw [← hY]),
    (add_ok fl (2 ^ (j + 1)) _ _ (by rw [hX]; simp) (by rw [hY]; simp)).trans (by rw [← hV]), ev, ?_⟩
  rw [← ht]
  apply List.ext_getElem
  · rw [List.length_map, lv, lt]
  · intro i i1 i2
    rw [List.getElem_map]
    apply pyRound_eq
    have hi : i < 2 ^ (j + 1) := by rw [← lt]; exact i2
    have := hv i hi
    rw [List.getD_eq_getElem _ _ (by rw [lv]; exact hi), List.getD_eq_getElem _ _ i2] at this
    refine lt_of_le_of_lt (this.trans bound) ?_
    norm_num at hP ⊢
    linarith only [hP]

end Verif.PyFloat
