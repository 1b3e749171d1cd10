import Verif.Ring.Ev
import Verif.Ring.Spec
import Mathlib.RingTheory.AdjoinRoot
import Mathlib.Algebra.Polynomial.Monic

/-! Bridge between evaluation at a root of `x^n = -1` and polynomials modulo `X^n + 1`. -/

namespace Verif.Ring

open Polynomial Finset

variable {R : Type} [CommRing R]

theorem aeval_toPoly {A : Type} [CommRing A] [Algebra R A] (r : A) (l : List R) : aeval r (toPoly l) = ev r l := by
  unfold toPoly ev at'
  rw [map_sum]; simp

/-- the class of `X` in `R[X]/(X^n+1)` -/
noncomputable def rt (R : Type) [CommRing R] (n : ℕ) : AdjoinRoot (X ^ n + 1 : R[X]) := AdjoinRoot.root _

theorem rt_pow (n : ℕ) : rt R n ^ n = -1 := by
  have : AdjoinRoot.mk (X ^ n + 1 : R[X]) (X ^ n + 1) = 0 := AdjoinRoot.mk_self
  rw [map_add, map_pow, map_one, AdjoinRoot.mk_X] at this
  exact eq_neg_of_add_eq_zero_left this

theorem mk_eq_aeval (n : ℕ) (p : R[X]) : AdjoinRoot.mk (X ^ n + 1 : R[X]) p = aeval (rt R n) p := (AdjoinRoot.aeval_eq p).symm

theorem negEq_iff (n : ℕ) (p q : R[X]) : NegEq n p q ↔ aeval (rt R n) p = aeval (rt R n) q := by
  rw [← mk_eq_aeval, ← mk_eq_aeval, AdjoinRoot.mk_eq_mk]; rfl

theorem NegEq.aeval_eq {n : ℕ} {p q : R[X]} (h : NegEq n p q) {A : Type} [CommRing A] [Algebra R A] (r : A) (hr : r ^ n = -1) :
    aeval r p = aeval r q := by
  obtain ⟨c, hc⟩ := h
  have : aeval r (p - q) = 0 := by rw [hc, map_mul, map_add, map_pow, aeval_X, map_one, hr]; simp
  rw [map_sub] at this
  exact sub_eq_zero.1 this

theorem coeff_toPoly (l : List R) (k : ℕ) : (toPoly l).coeff k = at' l k := by
  unfold toPoly
  rw [finsetSum_coeff]
  simp only [coeff_C_mul, coeff_X_pow, mul_ite, mul_one, mul_zero, sum_ite_eq, mem_range]
  by_cases h : k < l.length
  · rw [if_pos h]; rfl
  · rw [if_neg h, at'_ge _ _ (by omega)]

theorem degree_toPoly_lt (l : List R) (n : ℕ) (h : l.length ≤ n) : (toPoly l).degree < n := by
  rw [degree_lt_iff_coeff_zero]
  intro m hm
  rw [coeff_toPoly, at'_ge _ _ (by omega)]

theorem toPoly_inj (l l' : List R) (hl : l.length = l'.length) (h : toPoly l = toPoly l') : l = l' := by
  apply List.ext_getElem hl
  intro i h1 h2
  rw [← at'_lt _ _ h1, ← at'_lt _ _ h2, ← coeff_toPoly, ← coeff_toPoly, h]

/-- two coefficient lists of length `n` that agree modulo `X^n + 1` are equal -/
theorem list_eq_of_negEq (n : ℕ) (hn : 0 < n) (l l' : List R) (hl : l.length = n) (hl' : l'.length = n)
    (h : NegEq n (toPoly l) (toPoly l')) : l = l' := by
  rcases subsingleton_or_nontrivial R with hs | hs
  · apply List.ext_getElem (by omega)
    intro i _ _; exact Subsingleton.elim _ _
  apply toPoly_inj l l' (by omega)
  by_contra hne
  have hm : (X ^ n + 1 : R[X]).Monic := monic_X_pow_add_C 1 (by omega)
  refine hm.not_dvd_of_degree_lt (sub_ne_zero.2 hne) ?_ h
  have hd : (X ^ n + 1 : R[X]).degree = n := degree_X_pow_add_C hn 1
  rw [hd]
  exact lt_of_le_of_lt (degree_sub_le _ _) (max_lt (degree_toPoly_lt _ _ hl.le) (degree_toPoly_lt _ _ hl'.le))

theorem list_eq_of_ev (n : ℕ) (hn : 0 < n) (l l' : List R) (hl : l.length = n) (hl' : l'.length = n)
    (h : ev (rt R n) l = ev (rt R n) l') : l = l' := by
  apply list_eq_of_negEq n hn l l' hl hl'
  rw [negEq_iff, aeval_toPoly, aeval_toPoly, h]

@[simp] theorem length_negMul (n : ℕ) (a b : List R) : (negMul n a b).length = n := by simp [negMul]

theorem ev_negMul {A : Type} [CommRing A] [Algebra R A] (r : A) (n : ℕ) (hr : r ^ n = -1) (a b : List R) (ha : a.length = n) (hb : b.length = n) :
    ev r (negMul n a b) = ev r a * ev r b := by
  unfold negMul
  rw [ev_map_range]
  unfold ev negCoeff
  rw [ha, hb, sum_mul_sum]
  have step : ∀ k ∈ range n, algebraMap R A (∑ i ∈ range n, ∑ j ∈ range n,
      if i + j = k then a.getD i 0 * b.getD j 0 else if i + j = k + n then -(a.getD i 0 * b.getD j 0) else 0) * r ^ k =
      ∑ i ∈ range n, ∑ j ∈ range n, (if i + j = k then algebraMap R A (at' a i * at' b j) * r ^ k
        else if i + j = k + n then -(algebraMap R A (at' a i * at' b j)) * r ^ k else 0) := by
    intro k _
    rw [map_sum, sum_mul]
    apply sum_congr rfl; intro i _
    rw [map_sum, sum_mul]
    apply sum_congr rfl; intro j _
    unfold at'
    split
    · rfl
    · split
      · rw [map_neg]
      · simp
  rw [sum_congr rfl step, sum_comm]
  apply sum_congr rfl; intro i hi
  rw [sum_comm]
  apply sum_congr rfl; intro j hj
  have hi : i < n := by simpa using hi
  have hj : j < n := by simpa using hj
  rw [map_mul]
  by_cases h : i + j < n
  · rw [sum_eq_single (i + j)]
    · rw [if_pos rfl, pow_add]; ring
    · intro k hk hne
      have hk : k < n := by simpa using hk
      rw [if_neg (fun h' => hne h'.symm), if_neg (by omega)]
    · intro h'; exact absurd (by simpa using h) h'
  · rw [sum_eq_single (i + j - n)]
    · rw [if_neg (by omega), if_pos (by omega)]
      have : r ^ (i + j) = - r ^ (i + j - n) := by
        conv_lhs => rw [show i + j = (i + j - n) + n by omega, pow_add, hr]
        ring
      rw [show algebraMap R A (at' a i) * r ^ i * (algebraMap R A (at' b j) * r ^ j) =
        algebraMap R A (at' a i) * algebraMap R A (at' b j) * r ^ (i + j) by rw [pow_add]; ring, this]
      ring
    · intro k hk hne
      have hk : k < n := by simpa using hk
      rw [if_neg (by omega), if_neg (by omega)]
    · intro h'; exact absurd (by simp; omega) h'

end Verif.Ring
