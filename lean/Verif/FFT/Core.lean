import Verif.FFT.Model
import Verif.FFT.Spec
import Verif.Ring.Ev
import Verif.Ring.Quot
import Mathlib.Tactic.Ring
import Mathlib.Tactic.LinearCombination
import Mathlib.Tactic.FieldSimp

namespace Verif.FFT

open Finset

set_option linter.unusedSectionVars false

variable {K : Type} [Field K] [StarRing K] [DecidableEq K]

@[simp] theorem length_vec (n : Nat) (φ : Nat → K) : (vec n φ).length = n := by simp [vec]

theorem getD_vec (n : Nat) (φ : Nat → K) (i : Nat) : (vec n φ).getD i 0 = if i < n then φ i else 0 := Ring.at'_map_range φ n i

theorem getD_vec_lt {n : Nat} {φ : Nat → K} {i : Nat} (h : i < n) : (vec n φ).getD i 0 = φ i := by rw [getD_vec, if_pos h]

theorem vec_congr {n : Nat} {φ ψ : Nat → K} (h : ∀ i < n, φ i = ψ i) : vec n φ = vec n ψ :=
  List.map_congr_left fun i hi => h i (List.mem_range.1 hi)

theorem vec_inj {n : Nat} {φ ψ : Nat → K} (h : vec n φ = vec n ψ) : ∀ i < n, φ i = ψ i := fun i hi => by
  rw [← getD_vec_lt (φ := φ) hi, h, getD_vec_lt hi]

theorem eq_vec (f : List K) : f = vec f.length fun i => f.getD i 0 := by
  apply List.ext_getElem (by simp)
  intro i h1 h2
  simp [vec, List.getD_eq_getElem?_getD, List.getElem?_eq_getElem h1]

theorem eq_vec' {f : List K} {n : Nat} (h : f.length = n) : f = vec n fun i => f.getD i 0 := by
  subst h; exact eq_vec f

theorem list_ext {f g : List K} {n : Nat} (hf : f.length = n) (hg : g.length = n) (h : ∀ i < n, f.getD i 0 = g.getD i 0) : f = g := by
  rw [eq_vec' hf, eq_vec' hg]; exact vec_congr h

theorem evalAt_eq (r : K) (f : List K) : evalAt r f = Ring.ev r f := rfl

theorem evalAt_vec (r : K) (n : Nat) (φ : Nat → K) : evalAt r (vec n φ) = ∑ i ∈ range n, φ i * r ^ i := Ring.ev_map_range r φ n

theorem Real'.getD {f : List K} (h : Real' f) (i : Nat) : star (f.getD i 0) = f.getD i 0 := by
  by_cases hi : i < f.length
  · rw [List.getD_eq_getElem?_getD, List.getElem?_eq_getElem hi]; exact h _ (List.getElem_mem hi)
  · rw [List.getD_eq_getElem?_getD, List.getElem?_eq_none (by omega)]; simp

theorem real_vec {n : Nat} {φ : Nat → K} (h : ∀ i < n, star (φ i) = φ i) : Real' (vec n φ) := by
  intro x hx
  simp only [vec, List.mem_map, List.mem_range] at hx
  obtain ⟨i, hi, rfl⟩ := hx
  exact h i hi

theorem star_evalAt {f : List K} (h : Real' f) (r : K) : star (evalAt r f) = evalAt (star r) f := by
  unfold evalAt
  rw [star_sum]
  apply sum_congr rfl
  intro i _
  rw [star_mul', star_pow, h.getD]

theorem inDict_pow {k : Nat} (h1 : 1 ≤ k) (h2 : k ≤ 10) : inDict (2 ^ k) = true := by
  obtain ⟨k, rfl⟩ : ∃ j, k = j + 1 := ⟨k - 1, by omega⟩
  have : k < 10 := by omega
  interval_cases k <;> rfl

theorem inDict_iff (n : Nat) : inDict n = true ↔ ∃ k, 1 ≤ k ∧ k ≤ 10 ∧ n = 2 ^ k := by
  constructor
  · intro h
    simp only [inDict, List.contains_iff_mem, List.mem_cons, List.not_mem_nil, or_false] at h
    rcases h with h | h | h | h | h | h | h | h | h | h
    exacts [⟨1, by omega, by omega, h⟩, ⟨2, by omega, by omega, h⟩, ⟨3, by omega, by omega, h⟩, ⟨4, by omega, by omega, h⟩, ⟨5, by omega, by omega, h⟩,
      ⟨6, by omega, by omega, h⟩, ⟨7, by omega, by omega, h⟩, ⟨8, by omega, by omega, h⟩, ⟨9, by omega, by omega, h⟩, ⟨10, by omega, by omega, h⟩]
  · rintro ⟨k, h1, h2, rfl⟩; exact inDict_pow h1 h2

section Roots

variable {R : Nat → Nat → K} {I : K} (hR : RootLaw R I)
include hR

theorem RootLaw.odd_sq {k i : Nat} (h1 : 1 ≤ k) (h2 : k < 10) (hi : i < 2 ^ k) : R (2 ^ (k + 1)) (2 * i + 1) ^ 2 = R (2 ^ k) i := by
  rw [hR.neg (k + 1) i (by omega) (by omega) (by simpa using hi), neg_sq, hR.sq k i h1 h2 hi]

theorem RootLaw.sq' {k i : Nat} (h1 : 1 ≤ k) (h2 : k < 10) (hi : i < 2 ^ (k + 1)) : R (2 ^ (k + 1)) i ^ 2 = R (2 ^ k) (i / 2) := by
  have := pow_succ 2 k
  rcases Nat.even_or_odd' i with ⟨j, rfl | rfl⟩
  · rw [hR.sq k j h1 h2 (by omega)]; congr 1; omega
  · rw [hR.odd_sq h1 h2 (by omega)]; congr 1; omega

theorem RootLaw.pow {k : Nat} (h1 : 1 ≤ k) (h2 : k ≤ 10) : ∀ i < 2 ^ k, R (2 ^ k) i ^ 2 ^ k = -1 := by
  induction k, h1 using Nat.le_induction with
  | base =>
    intro i hi
    have hi : i < 2 := hi
    rcases Nat.lt_or_ge i 1 with h | h
    · obtain rfl : i = 0 := by omega
      show R 2 0 ^ 2 = -1
      rw [hR.base, pow_two, hR.sqI]
    · obtain rfl : i = 1 := by omega
      have := hR.neg 1 0 (by omega) (by omega) (by norm_num)
      show R 2 1 ^ 2 = -1
      rw [show R 2 1 = -R 2 0 from this, neg_sq, hR.base, pow_two, hR.sqI]
  | succ k h1 ih =>
    intro i hi
    have := pow_succ 2 k
    conv_lhs => arg 2; rw [this, mul_comm]
    rw [pow_mul, hR.sq' h1 (by omega) hi]
    exact ih (by omega) _ (by omega)

theorem RootLaw.ne_zero {k i : Nat} (h1 : 1 ≤ k) (h2 : k ≤ 10) (hi : i < 2 ^ k) : R (2 ^ k) i ≠ 0 := by
  intro h
  have := hR.unit k i h1 h2 hi
  rw [h, zero_mul] at this
  exact zero_ne_one this

theorem RootLaw.one (i : Nat) (hi : i < 2) : R 2 i = if i = 0 then I else -I := by
  rcases Nat.lt_or_ge i 1 with h | h
  · obtain rfl : i = 0 := by omega
    exact hR.base
  · obtain rfl : i = 1 := by omega
    have := hR.neg 1 0 (by omega) (by omega) (by norm_num)
    rw [show R 2 1 = -R 2 0 from this, hR.base]; rfl

theorem RootLaw.I_ne : I ≠ 0 := by
  intro h
  have := hR.sqI
  rw [h, zero_mul] at this
  exact one_ne_zero (neg_eq_zero.1 this.symm)

/-- The entries of a table are distinct. -/
theorem RootLaw.inj {k : Nat} (h1 : 1 ≤ k) (h2 : k ≤ 10) : ∀ i j, i < 2 ^ k → j < 2 ^ k → R (2 ^ k) i = R (2 ^ k) j → i = j := by
  have noneg : ∀ x : K, x ≠ 0 → x ≠ -x := by
    intro x hx h
    have : 2 * x = 0 := by linear_combination h
    rcases mul_eq_zero.1 this with h | h
    · exact hR.two h
    · exact hx h
  induction k, h1 using Nat.le_induction with
  | base =>
    intro i j hi hj h
    have hi : i < 2 := hi
    have hj : j < 2 := hj
    replace h : R 2 i = R 2 j := h
    rw [hR.one i hi, hR.one j hj] at h
    split at h <;> split at h
    · omega
    · exact absurd h (noneg _ hR.I_ne)
    · exact absurd h.symm (noneg _ hR.I_ne)
    · omega
  | succ k h1 ih =>
    intro i j hi hj h
    have e := pow_succ 2 k
    have hh : i / 2 = j / 2 := by
      apply ih (by omega) _ _ (by omega) (by omega)
      rw [← hR.sq' h1 (by omega) hi, ← hR.sq' h1 (by omega) hj, h]
    have key : ∀ m, m < 2 ^ k → R (2 ^ (k + 1)) (2 * m) ≠ R (2 ^ (k + 1)) (2 * m + 1) := by
      intro m hm
      rw [hR.neg (k + 1) m (by omega) (by omega) (by simpa using hm)]
      exact noneg _ (hR.ne_zero (by omega) (by omega) (by omega))
    rcases Nat.even_or_odd' i with ⟨a, rfl | rfl⟩ <;> rcases Nat.even_or_odd' j with ⟨b, rfl | rfl⟩
    · omega
    · obtain rfl : a = b := by omega
      exact absurd h (key a (by omega))
    · obtain rfl : a = b := by omega
      exact absurd h.symm (key a (by omega))
    · omega

/-- Every solution of `x^n = -1` is in the table. -/
theorem RootLaw.complete {k : Nat} (h1 : 1 ≤ k) (h2 : k ≤ 10) : ∀ z : K, z ^ 2 ^ k = -1 → ∃ i < 2 ^ k, z = R (2 ^ k) i := by
  have root : ∀ z w : K, z ^ 2 = w ^ 2 → z = w ∨ z = -w := fun z w h => sq_eq_sq_iff_eq_or_eq_neg.1 h
  induction k, h1 using Nat.le_induction with
  | base =>
    intro z hz
    have hz : z ^ 2 = -1 := hz
    have : z ^ 2 = I ^ 2 := by rw [hz, pow_two, hR.sqI]
    rcases root _ _ this with h | h
    · exact ⟨0, by norm_num, by rw [h]; exact hR.base.symm⟩
    · exact ⟨1, by norm_num, by rw [h]; exact (hR.one 1 (by omega)).symm⟩
  | succ k h1 ih =>
    intro z hz
    have e := pow_succ 2 k
    rw [pow_succ 2 k, mul_comm, pow_mul] at hz
    obtain ⟨i, hi, h⟩ := ih (by omega) _ hz
    rw [← hR.sq k i h1 (by omega) hi] at h
    rcases root _ _ h with h | h
    · exact ⟨2 * i, by omega, h⟩
    · exact ⟨2 * i + 1, by omega, by rw [h, hR.neg (k + 1) i (by omega) (by omega) (by simpa using hi)]⟩

end Roots

/-! ## split, merge -/

theorem split_eq {f : List K} {m : Nat} (h : f.length = 2 * m) : split f = (vec m fun i => f.getD (2 * i) 0, vec m fun i => f.getD (2 * i + 1) 0) := by
  unfold split
  rw [show f.length / 2 = m by omega]; rfl

theorem merge_split {f : List K} {m : Nat} (h : f.length = 2 * m) : merge (split f).1 (split f).2 = .ok f := by
  rw [split_eq h]
  unfold merge
  simp only [length_vec, lt_irrefl, if_false]
  congr 1
  conv_rhs => rw [eq_vec' h]
  apply vec_congr
  intro i hi
  split
  · rw [getD_vec_lt (by omega)]; congr 1; omega
  · rw [getD_vec_lt (by omega)]; congr 1; omega

theorem split_merge {a b f : List K} (h : a.length = b.length) (hf : merge a b = .ok f) : split f = (a, b) := by
  unfold merge at hf
  rw [if_neg (by omega)] at hf
  injection hf with hf
  have hl : f.length = 2 * a.length := by rw [← hf]; simp
  rw [split_eq hl, ← hf]
  congr 1
  · conv_rhs => rw [eq_vec a]
    apply vec_congr; intro i hi
    erw [getD_vec_lt (by omega)]
    rw [if_pos (by omega)]; congr 1; omega
  · conv_rhs => rw [eq_vec' h.symm]
    apply vec_congr; intro i hi
    erw [getD_vec_lt (by omega)]
    rw [if_neg (by omega)]; congr 1; omega

theorem evalAt_split {f : List K} {m : Nat} (h : f.length = 2 * m) (r : K) : evalAt r f = evalAt (r ^ 2) (split f).1 + r * evalAt (r ^ 2) (split f).2 := by
  rw [split_eq h]; exact Ring.ev_even_odd f m h r

theorem splitFft_eq {k : Nat} (R : Nat → Nat → K) (h1 : 1 ≤ k) (h2 : k ≤ 10) {f : List K} (h : f.length = 2 ^ k) : splitFft R f =
    .ok (vec (2 ^ (k - 1)) fun i => 1 / 2 * (f.getD (2 * i) 0 + f.getD (2 * i + 1) 0), vec (2 ^ (k - 1)) fun i => 1 / 2 * (f.getD (2 * i) 0 - f.getD (2 * i + 1) 0) * star (R (2 ^ k) (2 * i))) := by
  unfold splitFft
  have : 2 ^ k / 2 = 2 ^ (k - 1) := by
    obtain ⟨j, rfl⟩ : ∃ j, k = j + 1 := ⟨k - 1, by omega⟩
    rw [pow_succ]; simp
  simp only [h, inDict_pow h1 h2, if_true, this]; rfl

theorem mergeFft_eq {k : Nat} (R : Nat → Nat → K) (h1 : 1 ≤ k) (h2 : k ≤ 10) {a b : List K} (ha : a.length = 2 ^ (k - 1)) (hb : b.length = 2 ^ (k - 1)) : mergeFft R a b =
    .ok (vec (2 ^ k) fun j => if j % 2 = 0 then a.getD (j / 2) 0 + R (2 ^ k) (2 * (j / 2)) * b.getD (j / 2) 0 else a.getD (j / 2) 0 - R (2 ^ k) (2 * (j / 2)) * b.getD (j / 2) 0) := by
  unfold mergeFft
  have : 2 * 2 ^ (k - 1) = 2 ^ k := by
    obtain ⟨j, rfl⟩ : ∃ j, k = j + 1 := ⟨k - 1, by omega⟩
    rw [pow_succ]; simp [mul_comm]
  simp only [ha, hb, this, inDict_pow h1 h2, if_true, lt_irrefl, if_false]; rfl

section Roots
variable {R : Nat → Nat → K} {I : K} (hR : RootLaw R I)
include hR

theorem mergeFft_splitFft {k : Nat} (h1 : 1 ≤ k) (h2 : k ≤ 10) {f a b : List K} (h : f.length = 2 ^ k) (hs : splitFft R f = .ok (a, b)) : mergeFft R a b = .ok f := by
  rw [splitFft_eq R h1 h2 h] at hs
  injection hs with hs; injection hs with ha hb
  subst ha hb
  rw [mergeFft_eq R h1 h2 (by simp) (by simp)]
  congr 1
  conv_rhs => rw [eq_vec' h]
  have e : 2 * 2 ^ (k - 1) = 2 ^ k := by
    obtain ⟨j, rfl⟩ : ∃ j, k = j + 1 := ⟨k - 1, by omega⟩
    rw [pow_succ]; simp [mul_comm]
  apply vec_congr
  intro j hj
  rw [getD_vec_lt (by omega), getD_vec_lt (by omega)]
  have hu := hR.unit k (2 * (j / 2)) h1 h2 (by omega)
  have h2' := hR.two
  split
  · rw [show f.getD j 0 = f.getD (2 * (j / 2)) 0 by congr 1; omega]
    field_simp
    linear_combination (f.getD (2 * (j / 2)) 0 - f.getD (2 * (j / 2) + 1) 0) * hu
  · rw [show f.getD j 0 = f.getD (2 * (j / 2) + 1) 0 by congr 1; omega]
    field_simp
    linear_combination (-(f.getD (2 * (j / 2)) 0 - f.getD (2 * (j / 2) + 1) 0)) * hu

theorem splitFft_mergeFft {k : Nat} (h1 : 1 ≤ k) (h2 : k ≤ 10) {f a b : List K} (ha : a.length = 2 ^ (k - 1)) (hb : b.length = 2 ^ (k - 1)) (hm : mergeFft R a b = .ok f) :
    splitFft R f = .ok (a, b) := by
  rw [mergeFft_eq R h1 h2 ha hb] at hm
  injection hm with hm
  subst hm
  rw [splitFft_eq R h1 h2 (by simp)]
  have e : 2 * 2 ^ (k - 1) = 2 ^ k := by
    obtain ⟨j, rfl⟩ : ∃ j, k = j + 1 := ⟨k - 1, by omega⟩
    rw [pow_succ]; simp [mul_comm]
  congr 2
  · conv_rhs => rw [eq_vec' ha]
    apply vec_congr
    intro i hi
    rw [getD_vec_lt (by omega), getD_vec_lt (by omega), if_pos (by omega), if_neg (by omega)]
    rw [show 2 * i / 2 = i by omega, show (2 * i + 1) / 2 = i by omega]
    have h2' := hR.two
    field_simp; ring
  · conv_rhs => rw [eq_vec' hb]
    apply vec_congr
    intro i hi
    rw [getD_vec_lt (by omega), getD_vec_lt (by omega), if_pos (by omega), if_neg (by omega)]
    rw [show 2 * i / 2 = i by omega, show (2 * i + 1) / 2 = i by omega]
    have hu := hR.unit k (2 * i) h1 h2 (by omega)
    have h2' := hR.two
    field_simp
    linear_combination (2 * b.getD i 0) * hu

/-- `fft` evaluates at the roots, in the order of the table. -/
theorem fftLoop_eq {k : Nat} (h1 : 1 ≤ k) (h2 : k ≤ 10) : ∀ (fuel : Nat) (f : List K), f.length = 2 ^ k → k ≤ fuel → fftLoop R I fuel f = .ok (vec (2 ^ k) fun i => evalAt (R (2 ^ k) i) f) := by
  induction k, h1 using Nat.le_induction with
  | base =>
    intro fuel f h hf
    obtain ⟨fuel, rfl⟩ : ∃ j, fuel = j + 1 := ⟨fuel - 1, by omega⟩
    have h : f.length = 2 := h
    unfold fftLoop
    rw [if_neg (by omega), if_pos h]
    congr 1
    show _ = [evalAt (R 2 0) f, evalAt (R 2 1) f]
    rw [hR.one 0 (by omega), hR.one 1 (by omega), if_pos rfl, if_neg (by omega)]
    unfold evalAt
    rw [h, sum_range_succ, sum_range_succ, sum_range_succ, sum_range_succ]
    simp only [range_zero, sum_empty, pow_zero, pow_one, zero_add, mul_one]
    rw [show f.getD 0 0 + I * f.getD 1 0 = f.getD 0 0 + f.getD 1 0 * I by ring, show f.getD 0 0 - I * f.getD 1 0 = f.getD 0 0 + f.getD 1 0 * -I by ring]
  | succ k h1 ih =>
    intro fuel f h hf
    obtain ⟨fuel, rfl⟩ : ∃ j, fuel = j + 1 := ⟨fuel - 1, by omega⟩
    have e := pow_succ 2 k
    have hk : 2 ≤ 2 ^ k := by calc 2 = 2 ^ 1 := rfl
      _ ≤ 2 ^ k := Nat.pow_le_pow_right (by omega) h1
    have hs := split_eq (f := f) (m := 2 ^ k) (by omega)
    unfold fftLoop
    rw [if_pos (by omega)]
    rw [ih (by omega) fuel (split f).1 (by rw [hs]; simp) (by omega), ih (by omega) fuel (split f).2 (by rw [hs]; simp) (by omega)]
    show mergeFft R _ _ = _
    rw [mergeFft_eq R (k := k + 1) (by omega) h2 (by simp) (by simp)]
    congr 1
    apply vec_congr
    intro j hj
    rw [getD_vec_lt (by omega), getD_vec_lt (by omega), evalAt_split (f := f) (m := 2 ^ k) (by omega), hR.sq' h1 (by omega) hj]
    split
    · rw [show 2 * (j / 2) = j by omega]
    · have : R (2 ^ (k + 1)) j = -R (2 ^ (k + 1)) (2 * (j / 2)) := by
        have := hR.neg (k + 1) (j / 2) (by omega) h2 (by simp; omega)
        rw [show 2 * (j / 2) + 1 = j by omega] at this
        exact this
      rw [this]; ring

theorem pow_le_of_pow_two {k n : Nat} (h : n = 2 ^ k) : k ≤ n := by
  rw [h]; exact Nat.lt_two_pow_self.le

theorem fft_eq {k : Nat} (h1 : 1 ≤ k) (h2 : k ≤ 10) {f : List K} (h : f.length = 2 ^ k) : fft R I f = .ok (vec (2 ^ k) fun i => evalAt (R (2 ^ k) i) f) :=
  fftLoop_eq hR h1 h2 _ f h (by have := Nat.lt_two_pow_self (n := k); omega)

theorem re_real {a b : K} (ha : star a = a) (hb : star b = b) : re (a + I * b) = a := by
  unfold re
  have h2' := hR.two
  rw [star_add, star_mul', ha, hb, hR.starI]
  field_simp; ring

theorem im_real {a b : K} (ha : star a = a) (hb : star b = b) : im I (a + I * b) = b := by
  unfold im
  have h2' := hR.two
  have hI := hR.I_ne
  rw [star_add, star_mul', ha, hb, hR.starI]
  field_simp; ring

theorem re_star (z : K) : star (re z) = re z := by
  unfold re
  rw [star_div₀, star_add, star_star, star_ofNat, add_comm]

theorem im_star (z : K) : star (im I z) = im I z := by
  unfold im
  have h2' := hR.two
  have hI := hR.I_ne
  rw [star_div₀, star_sub, star_star, star_mul', star_ofNat, hR.starI]
  field_simp; ring

theorem re_im (z : K) : re z + I * im I z = z := by
  unfold re im
  have h2' := hR.two
  have hI := hR.I_ne
  field_simp; ring

theorem re_im' (z : K) : re z - I * im I z = star z := by
  unfold re im
  have h2' := hR.two
  have hI := hR.I_ne
  field_simp; ring

/-- `ifft(fft(f)) = f` for real `f`. -/
theorem ifftLoop_fft {k : Nat} (h1 : 1 ≤ k) (h2 : k ≤ 10) : ∀ (fuel : Nat) (f : List K), f.length = 2 ^ k → Real' f → k ≤ fuel →
    ifftLoop R I fuel (vec (2 ^ k) fun i => evalAt (R (2 ^ k) i) f) = .ok f := by
  induction k, h1 using Nat.le_induction with
  | base =>
    intro fuel f h hr hf
    obtain ⟨fuel, rfl⟩ : ∃ j, fuel = j + 1 := ⟨fuel - 1, by omega⟩
    have h : f.length = 2 := h
    unfold ifftLoop
    rw [if_neg (by simp), if_pos (by simp), getD_vec_lt (by norm_num)]
    show Except.ok [re (evalAt (R 2 0) f), im I (evalAt (R 2 0) f)] = _
    have : evalAt (R 2 0) f = f.getD 0 0 + I * f.getD 1 0 := by
      rw [hR.base]
      unfold evalAt
      rw [h, sum_range_succ, sum_range_succ]
      simp only [range_zero, sum_empty, pow_zero, pow_one, zero_add, mul_one]
      ring
    rw [this, re_real hR (hr.getD 0) (hr.getD 1), im_real hR (hr.getD 0) (hr.getD 1)]
    congr 1
    exact (eq_vec' h).symm
  | succ k h1 ih =>
    intro fuel f h hr hf
    obtain ⟨fuel, rfl⟩ : ∃ j, fuel = j + 1 := ⟨fuel - 1, by omega⟩
    have e := pow_succ 2 k
    have hk : 2 ≤ 2 ^ k := by calc 2 = 2 ^ 1 := rfl
      _ ≤ 2 ^ k := Nat.pow_le_pow_right (by omega) h1
    have hs := split_eq (f := f) (m := 2 ^ k) (by omega)
    have hm : mergeFft R (vec (2 ^ k) fun i => evalAt (R (2 ^ k) i) (split f).1) (vec (2 ^ k) fun i => evalAt (R (2 ^ k) i) (split f).2) =
        .ok (vec (2 ^ (k + 1)) fun i => evalAt (R (2 ^ (k + 1)) i) f) := by
      have := fftLoop_eq hR (k := k + 1) (by omega) h2 (k + 1) f h (by omega)
      unfold fftLoop at this
      rw [if_pos (by omega)] at this
      rw [fftLoop_eq hR h1 (by omega) k (split f).1 (by rw [hs]; simp) (by omega), fftLoop_eq hR h1 (by omega) k (split f).2 (by rw [hs]; simp) (by omega)] at this
      exact this
    have hsp := splitFft_mergeFft hR (k := k + 1) (by omega) h2 (by simp) (by simp) hm
    unfold ifftLoop
    rw [if_pos (by simp; omega), hsp]
    dsimp only
    rw [ih (by omega) fuel (split f).1 (by rw [hs]; simp) (by rw [hs]; exact real_vec fun i _ => hr.getD _) (by omega),
      ih (by omega) fuel (split f).2 (by rw [hs]; simp) (by rw [hs]; exact real_vec fun i _ => hr.getD _) (by omega)]
    exact merge_split (m := 2 ^ k) (by omega)

theorem ifft_fft {k : Nat} (h1 : 1 ≤ k) (h2 : k ≤ 10) {f : List K} (h : f.length = 2 ^ k) (hr : Real' f) : ifft R I (vec (2 ^ k) fun i => evalAt (R (2 ^ k) i) f) = .ok f :=
  ifftLoop_fft hR h1 h2 _ f h hr (by simp; have := Nat.lt_two_pow_self (n := k); omega)

theorem selfConj_eval {n : Nat} {f : List K} (hr : Real' f) : SelfConj R (vec n fun i => evalAt (R n i) f) := by
  intro i j hi hj h
  rw [length_vec] at hi hj h
  rw [getD_vec_lt hi, getD_vec_lt hj, h, star_evalAt hr]

/-- Splitting keeps conjugate-symmetric vectors conjugate-symmetric. -/
theorem selfConj_splitFft {k : Nat} (h1 : 1 ≤ k) (h2 : k < 10) {F a b : List K} (h : F.length = 2 ^ (k + 1)) (hF : SelfConj R F) (hs : splitFft R F = .ok (a, b)) :
    SelfConj R a ∧ SelfConj R b := by
  rw [splitFft_eq R (by omega) (by omega) h] at hs
  injection hs with hs; injection hs with ha hb
  have e := pow_succ 2 k
  have key : ∀ i j, i < 2 ^ k → j < 2 ^ k → R (2 ^ k) j = star (R (2 ^ k) i) →
      (R (2 ^ (k + 1)) (2 * j) = star (R (2 ^ (k + 1)) (2 * i)) ∧ F.getD (2 * j) 0 = star (F.getD (2 * i) 0) ∧ F.getD (2 * j + 1) 0 = star (F.getD (2 * i + 1) 0)) ∨
      (R (2 ^ (k + 1)) (2 * j) = -star (R (2 ^ (k + 1)) (2 * i)) ∧ F.getD (2 * j) 0 = star (F.getD (2 * i + 1) 0) ∧ F.getD (2 * j + 1) 0 = star (F.getD (2 * i) 0)) := by
    intro i j hi hj hij
    rw [← hR.sq k i h1 h2 hi, ← hR.sq k j h1 h2 hj, star_pow] at hij
    have ni := hR.neg (k + 1) i (by omega) (by omega) (by simpa using hi)
    have nj := hR.neg (k + 1) j (by omega) (by omega) (by simpa using hj)
    rcases sq_eq_sq_iff_eq_or_eq_neg.1 hij with h' | h'
    · refine Or.inl ⟨h', hF _ _ (by omega) (by omega) (by rw [h]; exact h'), hF _ _ (by omega) (by omega) (by rw [h, ni, nj, h', star_neg])⟩
    · refine Or.inr ⟨h', hF _ _ (by omega) (by omega) (by rw [h, ni, star_neg]; exact h'), hF _ _ (by omega) (by omega) (by rw [h, nj, h', neg_neg])⟩
  constructor
  · intro i j hi hj hij
    rw [← ha, length_vec] at hi hj hij
    simp only [Nat.add_sub_cancel] at hi hj hij
    rw [← ha, getD_vec_lt (by simpa using hj), getD_vec_lt (by simpa using hi)]
    rcases key i j hi hj hij with ⟨_, h3, h4⟩ | ⟨_, h3, h4⟩
    · rw [h3, h4, star_mul', star_add, star_div₀, star_one, star_ofNat]
    · rw [h3, h4, star_mul', star_add, star_div₀, star_one, star_ofNat, add_comm]
  · intro i j hi hj hij
    rw [← hb, length_vec] at hi hj hij
    simp only [Nat.add_sub_cancel] at hi hj hij
    rw [← hb, getD_vec_lt (by simpa using hj), getD_vec_lt (by simpa using hi)]
    rcases key i j hi hj hij with ⟨h5, h3, h4⟩ | ⟨h5, h3, h4⟩
    · rw [h3, h4, h5, star_mul', star_mul', star_sub, star_div₀, star_one, star_ofNat]
    · rw [h3, h4, h5, star_mul', star_mul', star_sub, star_div₀, star_one, star_ofNat, star_neg]; ring

/-- `ifft` of a conjugate-symmetric vector is a real polynomial whose transform is that vector. -/
theorem ifftLoop_selfConj {k : Nat} (h1 : 1 ≤ k) (h2 : k ≤ 10) : ∀ (fuel : Nat) (F : List K), F.length = 2 ^ k → SelfConj R F → k ≤ fuel →
    ∃ f, ifftLoop R I fuel F = .ok f ∧ f.length = 2 ^ k ∧ Real' f ∧ F = vec (2 ^ k) fun i => evalAt (R (2 ^ k) i) f := by
  induction k, h1 using Nat.le_induction with
  | base =>
    intro fuel F h hF hf
    obtain ⟨fuel, rfl⟩ : ∃ j, fuel = j + 1 := ⟨fuel - 1, by omega⟩
    have h : F.length = 2 := h
    unfold ifftLoop
    rw [if_neg (by omega), if_pos h]
    refine ⟨_, rfl, rfl, ?_, ?_⟩
    · intro x hx
      rcases List.mem_cons.1 hx with rfl | hx
      · exact re_star hR _
      · rw [List.mem_singleton.1 hx]; exact im_star hR _
    · have h10 : F.getD 1 0 = star (F.getD 0 0) := by
        apply hF 0 1 (by omega) (by omega)
        rw [h, hR.one 0 (by omega), hR.one 1 (by omega), if_pos rfl, if_neg (by omega), hR.starI]
      rw [eq_vec' h]
      apply vec_congr
      intro i hi
      rcases (by omega : i = 0 ∨ i = 1) with rfl | rfl
      · show F.getD 0 0 = evalAt (R 2 0) _
        rw [hR.base]
        simp only [evalAt, List.length_cons, List.length_nil, sum_range_succ, range_zero, sum_empty, List.getD_cons_zero, List.getD_cons_succ, pow_zero, pow_one, zero_add, mul_one]
        conv_lhs => rw [← re_im hR (F.getD 0 0)]
        rw [mul_comm I]; rfl
      · show F.getD 1 0 = evalAt (R 2 1) _
        rw [hR.one 1 (by omega), if_neg (by omega)]
        simp only [evalAt, List.length_cons, List.length_nil, sum_range_succ, range_zero, sum_empty, List.getD_cons_zero, List.getD_cons_succ, pow_zero, pow_one, zero_add, mul_one]
        rw [h10]
        conv_lhs => rw [← re_im' hR (F.getD 0 0)]
        rw [mul_neg, mul_comm I, sub_eq_add_neg]; rfl
  | succ k h1 ih =>
    intro fuel F h hF hf
    obtain ⟨fuel, rfl⟩ : ∃ j, fuel = j + 1 := ⟨fuel - 1, by omega⟩
    have e := pow_succ 2 k
    have hk : 2 ≤ 2 ^ k := by calc 2 = 2 ^ 1 := rfl
      _ ≤ 2 ^ k := Nat.pow_le_pow_right (by omega) h1
    have hs := splitFft_eq R (k := k + 1) (by omega) h2 h
    obtain ⟨hA, hB⟩ := selfConj_splitFft hR h1 (by omega) h hF hs
    obtain ⟨a, ea, la, ra, fa⟩ := ih (by omega) fuel _ (by simp) hA (by omega)
    obtain ⟨b, eb, lb, rb, fb⟩ := ih (by omega) fuel _ (by simp) hB (by omega)
    unfold ifftLoop
    rw [if_pos (by omega), hs]
    dsimp only
    rw [ea, eb]
    dsimp only
    have hm : ∃ f, merge a b = .ok f := by unfold merge; rw [if_neg (by omega)]; exact ⟨_, rfl⟩
    obtain ⟨f, hm⟩ := hm
    have hsf := split_merge (by omega) hm
    have lf : f.length = 2 ^ (k + 1) := by
      unfold merge at hm
      rw [if_neg (by omega)] at hm
      injection hm with hm
      rw [← hm]; simp; omega
    refine ⟨f, hm, lf, ?_, ?_⟩
    · have := split_eq (f := f) (m := 2 ^ k) (by omega)
      rw [hsf] at this
      injection this with e1 e2
      rw [eq_vec' lf]
      apply real_vec
      intro i hi
      rcases Nat.even_or_odd' i with ⟨j, rfl | rfl⟩
      · have := ra.getD j
        rw [e1, getD_vec_lt (by omega)] at this; exact this
      · have := rb.getD j
        rw [e2, getD_vec_lt (by omega)] at this; exact this
    · have hmF := mergeFft_splitFft hR (k := k + 1) (by omega) h2 h hs
      rw [fa, fb] at hmF
      have := fftLoop_eq hR (k := k + 1) (by omega) h2 (k + 1) f lf (by omega)
      unfold fftLoop at this
      rw [if_pos (by omega), hsf] at this
      dsimp only at this
      rw [fftLoop_eq hR h1 (by omega) k a la (by omega), fftLoop_eq hR h1 (by omega) k b lb (by omega)] at this
      dsimp only at this
      rw [hmF] at this
      injection this

theorem ifft_selfConj {k : Nat} (h1 : 1 ≤ k) (h2 : k ≤ 10) {F : List K} (h : F.length = 2 ^ k) (hF : SelfConj R F) :
    ∃ f, ifft R I F = .ok f ∧ f.length = 2 ^ k ∧ Real' f ∧ fft R I f = .ok F := by
  obtain ⟨f, h3, h4, h5, h6⟩ := ifftLoop_selfConj hR h1 h2 (F.length + 1) F h hF (by have := Nat.lt_two_pow_self (n := k); omega)
  refine ⟨f, h3, h4, h5, ?_⟩
  rw [fft_eq hR h1 h2 h4, ← h6]

/-- Real polynomials with equal transforms are equal. -/
theorem fft_inj {k : Nat} (h1 : 1 ≤ k) (h2 : k ≤ 10) {f g : List K} (hf : f.length = 2 ^ k) (hg : g.length = 2 ^ k) (rf : Real' f) (rg : Real' g)
    (h : ∀ i < 2 ^ k, evalAt (R (2 ^ k) i) f = evalAt (R (2 ^ k) i) g) : f = g := by
  have e1 := ifft_fft hR h1 h2 hf rf
  rw [vec_congr h, ifft_fft hR h1 h2 hg rg] at e1
  injection e1 with e1; exact e1.symm

end Roots

end Verif.FFT
