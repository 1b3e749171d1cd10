import Verif.FFT.Core

namespace Verif.FFT

open Finset

set_option linter.unusedSectionVars false

variable {K : Type} [Field K] [StarRing K] [DecidableEq K]

/-! ## Operations on transforms -/

theorem add_vec (n : Nat) (φ ψ : Nat → K) : add (vec n φ) (vec n ψ) = .ok (vec n fun i => φ i + ψ i) := by
  unfold add
  rw [if_pos (by simp), length_vec]
  congr 1
  apply vec_congr; intro i hi
  rw [getD_vec_lt hi, getD_vec_lt hi]

theorem neg_vec (n : Nat) (φ : Nat → K) : neg (vec n φ) = vec n fun i => -φ i := by
  unfold neg
  rw [length_vec]
  apply vec_congr; intro i hi
  rw [getD_vec_lt hi]

theorem sub_vec (n : Nat) (φ ψ : Nat → K) : sub (vec n φ) (vec n ψ) = .ok (vec n fun i => φ i - ψ i) := by
  unfold sub
  rw [neg_vec, add_vec]
  simp only [sub_eq_add_neg]

theorem mulFft_vec (n : Nat) (φ ψ : Nat → K) : mulFft (vec n φ) (vec n ψ) = .ok (vec n fun i => φ i * ψ i) := by
  unfold mulFft
  rw [if_neg (by simp), length_vec]
  congr 1
  apply vec_congr; intro i hi
  rw [getD_vec_lt hi, getD_vec_lt hi]

theorem adjFft_vec (n : Nat) (φ : Nat → K) : adjFft (vec n φ) = vec n fun i => star (φ i) := by
  unfold adjFft
  rw [length_vec]
  apply vec_congr; intro i hi
  rw [getD_vec_lt hi]

theorem divFft_vec (n : Nat) (φ ψ : Nat → K) (h : ∀ i < n, ψ i ≠ 0) : divFft (vec n φ) (vec n ψ) = .ok (vec n fun i => φ i / ψ i) := by
  unfold divFft
  rw [if_pos (by simp), length_vec, if_neg]
  · congr 1
    apply vec_congr; intro i hi
    rw [getD_vec_lt hi, getD_vec_lt hi]
  · rw [Bool.not_eq_true, List.any_eq_false]
    intro i hi
    have hi := List.mem_range.1 hi
    rw [getD_vec_lt hi]
    simpa using h i hi

theorem divFft_vec_zero (n : Nat) (φ ψ : Nat → K) {i : Nat} (hi : i < n) (h : ψ i = 0) : divFft (vec n φ) (vec n ψ) = .error .runtimeError := by
  unfold divFft
  rw [if_pos (by simp), length_vec, if_pos]
  rw [List.any_eq_true]
  exact ⟨i, List.mem_range.2 hi, by rw [getD_vec_lt hi]; simpa using h⟩

/-! ## Evaluation of sums, products and adjoints -/

theorem real_negMul {n : Nat} {f g : List K} (hf : Real' f) (hg : Real' g) : Real' (Ring.negMul n f g) := by
  unfold Ring.negMul
  apply real_vec (φ := Ring.negCoeff n f g)
  intro k _
  unfold Ring.negCoeff
  rw [star_sum]
  apply sum_congr rfl; intro i _
  rw [star_sum]
  apply sum_congr rfl; intro j _
  split
  · rw [star_mul', hf.getD, hg.getD]
  · split
    · rw [star_neg, star_mul', hf.getD, hg.getD]
    · rw [star_zero]

theorem evalAt_negMul {n : Nat} {r : K} (hr : r ^ n = -1) {f g : List K} (hf : f.length = n) (hg : g.length = n) :
    evalAt r (Ring.negMul n f g) = evalAt r f * evalAt r g := Ring.ev_negMul r n hr f g hf hg

theorem real_neg {f : List K} (hf : Real' f) : Real' (neg f) := by
  apply real_vec; intro i _; rw [star_neg, hf.getD]

theorem evalAt_neg (r : K) (f : List K) : evalAt r (neg f) = -evalAt r f := by
  have : neg f = vec f.length fun i => -f.getD i 0 := rfl
  rw [this, evalAt_vec]
  unfold evalAt
  rw [← sum_neg_distrib]
  apply sum_congr rfl; intro i _; ring

theorem length_neg (f : List K) : (neg f).length = f.length := by simp [neg]

theorem evalAt_add (r : K) (n : Nat) (φ ψ : Nat → K) : evalAt r (vec n fun i => φ i + ψ i) = evalAt r (vec n φ) + evalAt r (vec n ψ) := by
  rw [evalAt_vec, evalAt_vec, evalAt_vec, ← sum_add_distrib]
  apply sum_congr rfl; intro i _; ring

theorem evalAt_sub (r : K) (n : Nat) (φ ψ : Nat → K) : evalAt r (vec n fun i => φ i - ψ i) = evalAt r (vec n φ) - evalAt r (vec n ψ) := by
  rw [evalAt_vec, evalAt_vec, evalAt_vec, ← sum_sub_distrib]
  apply sum_congr rfl; intro i _; ring

theorem real_adjSpec {f : List K} (hf : Real' f) : Real' (adjSpec f) := by
  apply real_vec; intro i _
  split
  · rw [hf.getD]
  · rw [star_neg, hf.getD]

theorem length_adjSpec (f : List K) : (adjSpec f).length = f.length := by simp [adjSpec]

theorem evalAt_adjSpec {n : Nat} {r : K} (hr : r ^ n = -1) (hu : r * star r = 1) {f : List K} (hf : f.length = n) (rf : Real' f) :
    evalAt r (adjSpec f) = star (evalAt r f) := by
  have h0 : r ≠ 0 := by intro h; rw [h, zero_mul] at hu; exact zero_ne_one hu
  rw [star_evalAt rf]
  unfold adjSpec
  rw [evalAt_vec]
  unfold evalAt
  rw [hf]
  rcases n with _ | m
  · simp
  rw [sum_range_succ', sum_range_succ', if_pos rfl]
  rw [pow_zero, pow_zero]
  congr 1
  rw [← sum_range_reflect]
  apply sum_congr rfl
  intro i hi
  have hi : i < m := by simpa using hi
  rw [if_neg (by omega), show m + 1 - (m - 1 - i + 1) = i + 1 by omega]
  have hp : star r ^ (i + 1) = -r ^ (m - 1 - i + 1) := by
    have h1 : r ^ (i + 1) * star r ^ (i + 1) = 1 := by rw [← mul_pow, hu, one_pow]
    have h2 : r ^ (i + 1) * r ^ (m - 1 - i + 1) = -1 := by rw [← pow_add, ← hr]; congr 1; omega
    apply mul_left_cancel₀ (pow_ne_zero (i + 1) h0)
    rw [h1, mul_neg, h2, neg_neg]
  rw [hp]; ring

section Roots
variable {R : Nat → Nat → K} {I : K} (hR : RootLaw R I)
include hR

theorem mul_eq {k : Nat} (h1 : 1 ≤ k) (h2 : k ≤ 10) {f g : List K} (hf : f.length = 2 ^ k) (hg : g.length = 2 ^ k) (rf : Real' f) (rg : Real' g) :
    mul R I f g = .ok (Ring.negMul (2 ^ k) f g) := by
  unfold mul
  rw [fft_eq hR h1 h2 hf, fft_eq hR h1 h2 hg]
  dsimp only
  rw [mulFft_vec]
  dsimp only
  rw [← ifft_fft hR h1 h2 (f := Ring.negMul (2 ^ k) f g) (by simp) (real_negMul rf rg)]
  congr 1
  apply vec_congr; intro i hi
  rw [evalAt_negMul (hR.pow h1 h2 i hi) hf hg]

theorem adj_eq {k : Nat} (h1 : 1 ≤ k) (h2 : k ≤ 10) {f : List K} (hf : f.length = 2 ^ k) (rf : Real' f) : adj R I f = .ok (adjSpec f) := by
  unfold adj
  rw [fft_eq hR h1 h2 hf]
  dsimp only
  rw [adjFft_vec, ← ifft_fft hR h1 h2 (f := adjSpec f) (by rw [length_adjSpec, hf]) (real_adjSpec rf)]
  congr 1
  apply vec_congr; intro i hi
  rw [evalAt_adjSpec (hR.pow h1 h2 i hi) (hR.unit k i h1 h2 hi) hf rf]

theorem div_eq {k : Nat} (h1 : 1 ≤ k) (h2 : k ≤ 10) {f g : List K} (hf : f.length = 2 ^ k) (hg : g.length = 2 ^ k) (rf : Real' f) (rg : Real' g)
    (h0 : ∀ i < 2 ^ k, evalAt (R (2 ^ k) i) g ≠ 0) :
    ∃ h, div R I f g = .ok h ∧ h.length = 2 ^ k ∧ Real' h ∧ (∀ i < 2 ^ k, evalAt (R (2 ^ k) i) h = evalAt (R (2 ^ k) i) f / evalAt (R (2 ^ k) i) g) ∧ Ring.negMul (2 ^ k) h g = f := by
  have hsc : SelfConj R (vec (2 ^ k) fun i => evalAt (R (2 ^ k) i) f / evalAt (R (2 ^ k) i) g) := by
    intro i j hi hj h
    rw [length_vec] at hi hj h
    rw [getD_vec_lt hi, getD_vec_lt hj, h, star_div₀, star_evalAt rf, star_evalAt rg]
  obtain ⟨h, e1, l, r, e2⟩ := ifft_selfConj hR h1 h2 (by simp) hsc
  rw [fft_eq hR h1 h2 l] at e2
  injection e2 with e2
  have e3 := vec_inj e2
  refine ⟨h, ?_, l, r, e3, ?_⟩
  · unfold div
    rw [fft_eq hR h1 h2 hf, fft_eq hR h1 h2 hg]
    dsimp only
    rw [divFft_vec _ _ _ h0]
    exact e1
  · apply fft_inj hR h1 h2 (by simp) hf (real_negMul r rg) rf
    intro i hi
    rw [evalAt_negMul (hR.pow h1 h2 i hi) l hg, e3 i hi, div_mul_cancel₀ _ (h0 i hi)]

theorem div_zero {k : Nat} (h1 : 1 ≤ k) (h2 : k ≤ 10) {f g : List K} (hf : f.length = 2 ^ k) (hg : g.length = 2 ^ k) {i : Nat} (hi : i < 2 ^ k)
    (h0 : evalAt (R (2 ^ k) i) g = 0) : div R I f g = .error .runtimeError := by
  unfold div
  rw [fft_eq hR h1 h2 hf, fft_eq hR h1 h2 hg]
  dsimp only
  rw [divFft_vec_zero _ _ _ hi h0]

/-- One level of Parseval: the squares of the values split over the halves. -/
theorem parseval {k : Nat} (h1 : 1 ≤ k) (h2 : k ≤ 10) : ∀ f g : List K, f.length = 2 ^ k → g.length = 2 ^ k → Real' f → Real' g →
    ∑ i ∈ range (2 ^ k), evalAt (R (2 ^ k) i) f * star (evalAt (R (2 ^ k) i) g) = (2 ^ k : ℕ) * ∑ i ∈ range (2 ^ k), f.getD i 0 * g.getD i 0 := by
  induction k, h1 using Nat.le_induction with
  | base =>
    intro f g hf hg rf rg
    have hf : f.length = 2 := hf
    have hg : g.length = 2 := hg
    show ∑ i ∈ range 2, evalAt (R 2 i) f * star (evalAt (R 2 i) g) = (2 : ℕ) * ∑ i ∈ range 2, _
    simp only [sum_range_succ, range_zero, sum_empty]
    rw [star_evalAt rg, star_evalAt rg, hR.one 0 (by omega), hR.one 1 (by omega), if_pos rfl, if_neg (by omega), star_neg, hR.starI]
    unfold evalAt
    rw [hf, hg]
    simp only [sum_range_succ, range_zero, sum_empty, pow_zero, pow_one, zero_add, mul_one]
    push_cast
    linear_combination (-2 * f.getD 1 0 * g.getD 1 0) * hR.sqI
  | succ k h1 ih =>
    intro f g hf hg rf rg
    have e := pow_succ 2 k
    have sf := split_eq (f := f) (m := 2 ^ k) (by omega)
    have sg := split_eq (f := g) (m := 2 ^ k) (by omega)
    have pair : ∀ (m : Nat) (φ : Nat → K), ∑ i ∈ range (m * 2), φ i = ∑ i ∈ range m, (φ (2 * i) + φ (2 * i + 1)) := by
      intro m φ
      induction m with
      | zero => simp
      | succ m ih => rw [show (m + 1) * 2 = m * 2 + 1 + 1 by ring, sum_range_succ, sum_range_succ, ih, sum_range_succ, mul_comm m 2]; ring
    have i1 := ih (by omega) (split f).1 (split g).1 (by rw [sf]; simp) (by rw [sg]; simp) (by rw [sf]; exact real_vec fun i _ => rf.getD _) (by rw [sg]; exact real_vec fun i _ => rg.getD _)
    have i2 := ih (by omega) (split f).2 (split g).2 (by rw [sf]; simp) (by rw [sg]; simp) (by rw [sf]; exact real_vec fun i _ => rf.getD _) (by rw [sg]; exact real_vec fun i _ => rg.getD _)
    have j1 : ∑ i ∈ range (2 ^ k), (split f).1.getD i 0 * (split g).1.getD i 0 = ∑ i ∈ range (2 ^ k), f.getD (2 * i) 0 * g.getD (2 * i) 0 := by
      apply sum_congr rfl; intro i hi
      have hi : i < 2 ^ k := by simpa using hi
      rw [sf, sg, getD_vec_lt hi, getD_vec_lt hi]
    have j2 : ∑ i ∈ range (2 ^ k), (split f).2.getD i 0 * (split g).2.getD i 0 = ∑ i ∈ range (2 ^ k), f.getD (2 * i + 1) 0 * g.getD (2 * i + 1) 0 := by
      apply sum_congr rfl; intro i hi
      have hi : i < 2 ^ k := by simpa using hi
      rw [sf, sg, getD_vec_lt hi, getD_vec_lt hi]
    rw [j1] at i1
    rw [j2] at i2
    have hL : ∑ i ∈ range (2 ^ (k + 1)), evalAt (R (2 ^ (k + 1)) i) f * star (evalAt (R (2 ^ (k + 1)) i) g) =
        ∑ i ∈ range (2 ^ k), (2 * (evalAt (R (2 ^ k) i) (split f).1 * star (evalAt (R (2 ^ k) i) (split g).1)) + 2 * (evalAt (R (2 ^ k) i) (split f).2 * star (evalAt (R (2 ^ k) i) (split g).2))) := by
      conv_lhs => rw [e]
      rw [pair, ← e]
      apply sum_congr rfl; intro i hi
      have hi : i < 2 ^ k := by simpa using hi
      rw [evalAt_split (f := f) (m := 2 ^ k) (by omega), evalAt_split (f := g) (m := 2 ^ k) (by omega), evalAt_split (f := f) (m := 2 ^ k) (by omega), evalAt_split (f := g) (m := 2 ^ k) (by omega),
        hR.sq k i h1 (by omega) hi, hR.odd_sq h1 (by omega) hi, hR.neg (k + 1) i (by omega) h2 (by simpa using hi)]
      have hu := hR.unit (k + 1) (2 * i) (by omega) h2 (by omega)
      simp only [star_add, star_mul', star_neg]
      linear_combination (2 * evalAt (R (2 ^ k) i) (split f).2 * star (evalAt (R (2 ^ k) i) (split g).2)) * hu
    rw [hL, sum_add_distrib, ← mul_sum, ← mul_sum, i1, i2]
    conv_rhs => rw [e, pair, sum_add_distrib]
    push_cast; ring

end Roots

end Verif.FFT
