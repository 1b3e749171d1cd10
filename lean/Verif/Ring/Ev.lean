import Verif.Ring.Model
import Mathlib.Algebra.Algebra.Basic
import Mathlib.Algebra.BigOperators.Ring.Finset
import Mathlib.Algebra.BigOperators.Intervals
import Mathlib.Tactic.Ring
import Mathlib.Tactic.Linarith
import Mathlib.Tactic.LinearCombination

/-! Evaluating a coefficient list at an element of a commutative algebra. -/

namespace Verif.Ring

open Finset

variable {R : Type} [CommRing R] {A : Type} [CommRing A] [Algebra R A]

/-- `Σ l[i] r^i`. -/
def ev (r : A) (l : List R) : A := ∑ i ∈ range l.length, algebraMap R A (at' l i) * r ^ i

theorem at'_ge (l : List R) (i : Nat) (h : l.length ≤ i) : at' l i = 0 := by
  unfold at'; rw [List.getD_eq_getElem?_getD, List.getElem?_eq_none h]; rfl

theorem at'_lt (l : List R) (i : Nat) (h : i < l.length) : at' l i = l[i] := by
  unfold at'; rw [List.getD_eq_getElem?_getD, List.getElem?_eq_getElem h]; rfl

theorem ev_ge (r : A) (l : List R) (N : Nat) (h : l.length ≤ N) : ev r l = ∑ i ∈ range N, algebraMap R A (at' l i) * r ^ i := by
  unfold ev
  apply Finset.sum_subset (by intro x; simp; omega)
  intro x _ hx
  rw [at'_ge _ _ (by simpa using hx)]; simp

theorem at'_map_range (f : Nat → R) (n i : Nat) : at' ((List.range n).map f) i = if i < n then f i else 0 := by
  unfold at'; rw [List.getD_eq_getElem?_getD]
  by_cases h : i < n
  · simp [h]
  · rw [List.getElem?_eq_none (by simpa using h), if_neg h]; rfl

theorem ev_map_range (r : A) (f : Nat → R) (n : Nat) : ev r ((List.range n).map f) = ∑ i ∈ range n, algebraMap R A (f i) * r ^ i := by
  rw [ev_ge _ _ n (by simp)]
  apply sum_congr rfl
  intro i hi
  rw [at'_map_range, if_pos (by simpa using hi)]

theorem at'_addAt (l : List R) (i j : Nat) (x : R) : at' (addAt l i x) j = at' l j + if i = j ∧ j < l.length then x else 0 := by
  unfold at' addAt
  rw [List.getD_eq_getElem?_getD, List.getD_eq_getElem?_getD, List.getElem?_modify]
  by_cases h : i = j
  · subst h
    by_cases h' : i < l.length
    · simp [h']
    · simp [h']
  · simp [h]

@[simp] theorem length_addAt (l : List R) (i : Nat) (x : R) : (addAt l i x).length = l.length := by simp [addAt]

theorem ev_addAt (r : A) (l : List R) (i : Nat) (x : R) (h : i < l.length) : ev r (addAt l i x) = ev r l + algebraMap R A x * r ^ i := by
  unfold ev
  rw [length_addAt]
  have : ∀ j ∈ range l.length, algebraMap R A (at' (addAt l i x) j) * r ^ j =
      algebraMap R A (at' l j) * r ^ j + if i = j then algebraMap R A x * r ^ j else 0 := by
    intro j hj
    have hj : j < l.length := by simpa using hj
    rw [at'_addAt]
    by_cases hij : i = j
    · rw [if_pos ⟨hij, hj⟩, if_pos hij, map_add]; ring
    · rw [if_neg (by tauto), if_neg hij, add_zero, add_zero]
  rw [sum_congr rfl this, sum_add_distrib, sum_ite_eq, if_pos (by simpa using h)]

theorem at'_take (l : List R) (m i : Nat) : at' (l.take m) i = if i < m then at' l i else 0 := by
  unfold at'; simp only [List.getD_eq_getElem?_getD, List.getElem?_take]
  by_cases h : i < m <;> simp [h]

theorem at'_drop (l : List R) (m i : Nat) : at' (l.drop m) i = at' l (m + i) := by
  unfold at'; simp [List.getD_eq_getElem?_getD]

theorem ev_take_drop (r : A) (l : List R) (m : Nat) : ev r l = ev r (l.take m) + r ^ m * ev r (l.drop m) := by
  have h0 : ev r l = ∑ i ∈ range (m + l.length), algebraMap R A (at' l i) * r ^ i := ev_ge r l _ (by omega)
  rw [h0, sum_range_add, ev_ge r (l.take m) m (by simp), ev_ge r (l.drop m) l.length (by simp), mul_sum]
  congr 1
  · apply sum_congr rfl
    intro i hi; rw [at'_take, if_pos (by simpa using hi)]
  · apply sum_congr rfl
    intro i _; rw [at'_drop, pow_add]; ring

theorem ev_replicate_zero (r : A) (m : Nat) : ev r (List.replicate m (0 : R)) = 0 := by
  unfold ev
  apply sum_eq_zero
  intro i hi
  unfold at'; rw [List.getD_eq_getElem?_getD]
  have : i < m := by simpa using hi
  simp [this]

/-- A loop of additions at positions `p i`. -/
theorem addAt_loop (r : A) (p : Nat → Nat) (v : Nat → R) (N : Nat) (l : List R) (h : ∀ i < N, p i < l.length) :
    ((List.range N).foldl (fun l i => addAt l (p i) (v i)) l).length = l.length ∧
    ev r ((List.range N).foldl (fun l i => addAt l (p i) (v i)) l) = ev r l + ∑ i ∈ range N, algebraMap R A (v i) * r ^ (p i) := by
  induction N with
  | zero => simp
  | succ N ih =>
    obtain ⟨h1, h2⟩ := ih fun i hi => h i (by omega)
    simp only [List.range_succ, List.foldl_append, List.foldl_cons, List.foldl_nil]
    refine ⟨by rw [length_addAt, h1], ?_⟩
    rw [ev_addAt _ _ _ _ (by rw [h1]; exact h N (by omega)), h2, sum_range_succ, add_assoc]

/-- The values after a loop of additions at distinct positions `i < N`. -/
theorem at'_addAt_loop (v : Nat → R) (N : Nat) (l : List R) (h : N ≤ l.length) (j : Nat) :
    at' ((List.range N).foldl (fun l i => addAt l i (v i)) l) j = at' l j + if j < N then v j else 0 := by
  induction N with
  | zero => simp
  | succ N ih =>
    have hlen : ((List.range N).foldl (fun l i => addAt l i (v i)) l).length = l.length := by
      clear ih h
      induction N with
      | zero => rfl
      | succ N ih => simp only [List.range_succ, List.foldl_append, List.foldl_cons, List.foldl_nil, length_addAt, ih]
    simp only [List.range_succ, List.foldl_append, List.foldl_cons, List.foldl_nil]
    rw [at'_addAt, ih (by omega), hlen]
    by_cases h1 : j < N
    · rw [if_pos h1, if_neg (by omega), if_pos (by omega)]; ring
    · by_cases h2 : N = j
      · subst h2; rw [if_neg h1, if_pos (by omega), if_pos (by omega)]; ring
      · rw [if_neg h1, if_neg (by omega), if_neg (by omega)]; ring

/-- Karatsuba is a product: length `2 n` and evaluation multiplicative, for `n` a power of two. -/
theorem karatsubaAux_spec (k : Nat) : ∀ (fuel : Nat) (a b : List R), k < fuel → a.length = 2 ^ k → b.length = 2 ^ k →
    (karatsubaAux fuel a b (2 ^ k)).length = 2 * 2 ^ k ∧
    ∀ {A : Type} [CommRing A] [Algebra R A] (r : A), ev r (karatsubaAux fuel a b (2 ^ k)) = ev r a * ev r b := by
  induction k with
  | zero =>
    intro fuel a b hf ha hb
    obtain ⟨fuel, rfl⟩ : ∃ f, fuel = f + 1 := ⟨fuel - 1, by omega⟩
    simp only [karatsubaAux, pow_zero, if_true]
    refine ⟨rfl, fun r => ?_⟩
    simp only [pow_zero] at ha hb
    unfold ev
    rw [ha, hb]
    simp [at', Finset.sum_range_succ]
  | succ k ih =>
    intro fuel a b hf ha hb
    obtain ⟨fuel, rfl⟩ : ∃ f, fuel = f + 1 := ⟨fuel - 1, by omega⟩
    have hp : 2 ^ (k + 1) = 2 * 2 ^ k := by rw [pow_succ]; ring
    have hpos : 0 < 2 ^ k := Nat.two_pow_pos k
    have hn2 : 2 ^ (k + 1) / 2 = 2 ^ k := by omega
    simp only [karatsubaAux]
    rw [if_neg (by omega), hn2]
    set a0 := a.take (2 ^ k) with ha0
    set a1 := a.drop (2 ^ k) with ha1
    set b0 := b.take (2 ^ k) with hb0
    set b1 := b.drop (2 ^ k) with hb1
    set ax := (List.range (2 ^ k)).map fun i => at' a0 i + at' a1 i with hax
    set bx := (List.range (2 ^ k)).map fun i => at' b0 i + at' b1 i with hbx
    have la0 : a0.length = 2 ^ k := by rw [ha0, List.length_take]; omega
    have la1 : a1.length = 2 ^ k := by rw [ha1, List.length_drop]; omega
    have lb0 : b0.length = 2 ^ k := by rw [hb0, List.length_take]; omega
    have lb1 : b1.length = 2 ^ k := by rw [hb1, List.length_drop]; omega
    obtain ⟨l00, e00⟩ := ih fuel a0 b0 (by omega) la0 lb0
    obtain ⟨l11, e11⟩ := ih fuel a1 b1 (by omega) la1 lb1
    obtain ⟨lxx, exx⟩ := ih fuel ax bx (by omega) (by simp [hax]) (by simp [hbx])
    set p00 := karatsubaAux fuel a0 b0 (2 ^ k)
    set p11 := karatsubaAux fuel a1 b1 (2 ^ k)
    set pxx := karatsubaAux fuel ax bx (2 ^ k)
    have hl2 := (addAt_loop (1 : R) (fun i => i) (fun i => -(at' p00 i + at' p11 i)) (2 ^ (k + 1)) pxx (by intro i hi; rw [lxx]; omega)).1
    set mid := (List.range (2 ^ (k + 1))).foldl (fun l i => addAt l i (-(at' p00 i + at' p11 i))) pxx
    have lmid : mid.length = 2 ^ (k + 1) := by rw [hl2, lxx, hp]
    -- the accumulation loop
    have loop : ∀ (N : Nat), N ≤ 2 ^ (k + 1) → ∀ {A : Type} [CommRing A] [Algebra R A] (r : A),
        ((List.range N).foldl (fun ab i => addAt (addAt (addAt ab i (at' p00 i)) (i + 2 ^ (k + 1)) (at' p11 i)) (i + 2 ^ k) (at' mid i))
          (List.replicate (2 * 2 ^ (k + 1)) 0)).length = 2 * 2 ^ (k + 1) ∧
        ev r ((List.range N).foldl (fun ab i => addAt (addAt (addAt ab i (at' p00 i)) (i + 2 ^ (k + 1)) (at' p11 i)) (i + 2 ^ k) (at' mid i))
          (List.replicate (2 * 2 ^ (k + 1)) 0)) =
          ∑ i ∈ range N, (algebraMap R A (at' p00 i) * r ^ i + algebraMap R A (at' p11 i) * r ^ (i + 2 ^ (k + 1)) +
            algebraMap R A (at' mid i) * r ^ (i + 2 ^ k)) := by
      intro N hN A _ _ r
      induction N with
      | zero => simp [ev_replicate_zero]
      | succ N ihN =>
        obtain ⟨h1, h2⟩ := ihN (by omega)
        simp only [List.range_succ, List.foldl_append, List.foldl_cons, List.foldl_nil]
        refine ⟨by simp only [length_addAt, h1], ?_⟩
        rw [ev_addAt _ _ _ _ (by simp only [length_addAt, h1]; omega), ev_addAt _ _ _ _ (by simp only [length_addAt, h1]; omega),
          ev_addAt _ _ _ _ (by rw [h1]; omega), h2, sum_range_succ]
        ring
    refine ⟨(loop _ (le_refl _) (1 : R)).1, fun {A} _ _ r => ?_⟩
    rw [(loop _ (le_refl _) r).2, sum_add_distrib, sum_add_distrib]
    have s00 : ∑ i ∈ range (2 ^ (k + 1)), algebraMap R A (at' p00 i) * r ^ i = ev r p00 := (ev_ge r p00 _ (by omega)).symm
    have s11 : ∑ i ∈ range (2 ^ (k + 1)), algebraMap R A (at' p11 i) * r ^ (i + 2 ^ (k + 1)) = ev r p11 * r ^ 2 ^ (k + 1) := by
      rw [ev_ge r p11 (2 ^ (k + 1)) (by omega), sum_mul]; apply sum_congr rfl; intro i _; rw [pow_add]; ring
    have smid : ∑ i ∈ range (2 ^ (k + 1)), algebraMap R A (at' mid i) * r ^ (i + 2 ^ k) = ev r mid * r ^ 2 ^ k := by
      rw [ev_ge r mid (2 ^ (k + 1)) (by omega), sum_mul]; apply sum_congr rfl; intro i _; rw [pow_add]; ring
    have emid : ev r mid = ev r pxx - (ev r p00 + ev r p11) := by
      have := (addAt_loop r (fun i => i) (fun i => -(at' p00 i + at' p11 i)) (2 ^ (k + 1)) pxx (by intro i hi; rw [lxx]; omega)).2
      rw [this, ev_ge r p00 (2 ^ (k + 1)) (by omega), ev_ge r p11 (2 ^ (k + 1)) (by omega), ← sum_add_distrib, sub_eq_add_neg, ← sum_neg_distrib]
      congr 1; apply sum_congr rfl; intro i _; rw [map_neg, map_add]; ring
    have eax : ev r ax = ev r a0 + ev r a1 := by
      rw [hax, ev_map_range, ev_ge r a0 (2 ^ k) (by omega), ev_ge r a1 (2 ^ k) (by omega), ← sum_add_distrib]
      apply sum_congr rfl; intro i _; rw [map_add]; ring
    have ebx : ev r bx = ev r b0 + ev r b1 := by
      rw [hbx, ev_map_range, ev_ge r b0 (2 ^ k) (by omega), ev_ge r b1 (2 ^ k) (by omega), ← sum_add_distrib]
      apply sum_congr rfl; intro i _; rw [map_add]; ring
    rw [s00, s11, smid, emid, exx, e00, e11, eax, ebx, ev_take_drop r a (2 ^ k), ev_take_drop r b (2 ^ k), ← ha0, ← ha1, ← hb0, ← hb1, hp]
    ring

theorem karatsuba_spec (k : Nat) (a b : List R) (ha : a.length = 2 ^ k) (hb : b.length = 2 ^ k) :
    (karatsuba a b (2 ^ k)).length = 2 * 2 ^ k ∧
    ∀ {A : Type} [CommRing A] [Algebra R A] (r : A), ev r (karatsuba a b (2 ^ k)) = ev r a * ev r b :=
  karatsubaAux_spec k _ a b Nat.lt_two_pow_self ha hb

@[simp] theorem length_karamul (a b : List R) : (karamul a b).length = a.length := by simp [karamul]

theorem ev_karamul (k : Nat) (a b : List R) (ha : a.length = 2 ^ k) (hb : b.length = 2 ^ k) (r : A) (hr : r ^ 2 ^ k = -1) :
    ev r (karamul a b) = ev r a * ev r b := by
  obtain ⟨h1, h2⟩ := karatsuba_spec k a b ha hb
  rw [← h2 r]
  unfold karamul
  simp only [ha]
  set ab := karatsuba a b (2 ^ k)
  rw [ev_map_range, ev_take_drop r ab (2 ^ k), hr, ev_ge r (ab.take (2 ^ k)) (2 ^ k) (by simp),
    ev_ge r (ab.drop (2 ^ k)) (2 ^ k) (by simp [h1]; omega), mul_sum, ← sum_add_distrib]
  apply sum_congr rfl
  intro i hi
  rw [at'_take, if_pos (by simpa using hi), at'_drop, map_sub, Nat.add_comm i]; ring

@[simp] theorem length_galois (a : List R) : (galoisConjugate a).length = a.length := by simp [galoisConjugate]

theorem ev_galois (a : List R) (r : A) : ev r (galoisConjugate a) = ev (-r) a := by
  unfold galoisConjugate
  rw [ev_map_range]; unfold ev
  apply sum_congr rfl
  intro i _
  rw [map_mul, map_pow, map_neg, map_one, neg_pow]; ring

/-- even and odd parts -/
theorem ev_even_odd (a : List R) (m : Nat) (ha : a.length = 2 * m) (r : A) :
    ev r a = ev (r ^ 2) ((List.range m).map fun i => at' a (2 * i)) + r * ev (r ^ 2) ((List.range m).map fun i => at' a (2 * i + 1)) := by
  rw [ev_map_range, ev_map_range, mul_sum, ← sum_add_distrib]
  unfold ev
  rw [ha]
  induction m generalizing a with
  | zero => simp
  | succ m ih =>
    rw [sum_range_succ, show 2 * (m + 1) = 2 * m + 1 + 1 by ring, sum_range_succ, sum_range_succ]
    have := ih (a.take (2 * m)) (by rw [List.length_take]; omega)
    have e1 : ∀ i ∈ range (2 * m), algebraMap R A (at' (a.take (2 * m)) i) * r ^ i = algebraMap R A (at' a i) * r ^ i := by
      intro i hi; rw [at'_take, if_pos (by simpa using hi)]
    have e2 : ∀ i ∈ range m, (algebraMap R A (at' (a.take (2 * m)) (2 * i)) * (r ^ 2) ^ i + r * (algebraMap R A (at' (a.take (2 * m)) (2 * i + 1)) * (r ^ 2) ^ i))
        = algebraMap R A (at' a (2 * i)) * (r ^ 2) ^ i + r * (algebraMap R A (at' a (2 * i + 1)) * (r ^ 2) ^ i) := by
      intro i hi
      have hi : i < m := by simpa using hi
      rw [at'_take, at'_take, if_pos (by omega), if_pos (by omega)]
    rw [sum_congr rfl e1, sum_congr rfl e2] at this
    rw [this, pow_succ, pow_mul]
    ring

theorem length_fieldNorm (a : List R) : (fieldNorm a).length = a.length / 2 := by
  unfold fieldNorm
  simp only [length_addAt]
  have : ∀ (N : Nat) (v : Nat → R) (l : List R), ((List.range N).foldl (fun r i => addAt r (i + 1) (v i)) l).length = l.length := by
    intro N v l
    induction N with
    | zero => rfl
    | succ N ih => simp only [List.range_succ, List.foldl_append, List.foldl_cons, List.foldl_nil, length_addAt, ih]
  rw [this]; simp

theorem ev_fieldNorm (k : Nat) (a : List R) (ha : a.length = 2 ^ (k + 1)) (r : A) (hr : r ^ 2 ^ (k + 1) = -1) :
    ev (r ^ 2) (fieldNorm a) = ev r a * ev (-r) a := by
  have hp : 2 ^ (k + 1) = 2 * 2 ^ k := by rw [pow_succ]; ring
  have hpos : 0 < 2 ^ k := Nat.two_pow_pos k
  have hs : (r ^ 2) ^ 2 ^ k = -1 := by rw [← pow_mul, ← hp, hr]
  rw [ev_even_odd a (2 ^ k) (by omega) r, ev_even_odd a (2 ^ k) (by omega) (-r), neg_sq]
  unfold fieldNorm
  simp only [ha, show 2 ^ (k + 1) / 2 = 2 ^ k by omega]
  set ae := (List.range (2 ^ k)).map fun i => at' a (2 * i)
  set ao := (List.range (2 ^ k)).map fun i => at' a (2 * i + 1)
  have lae : ae.length = 2 ^ k := by simp [ae]
  have lao : ao.length = 2 ^ k := by simp [ao]
  obtain ⟨h1, h2⟩ := addAt_loop (r ^ 2) (fun i => i + 1) (fun i => -(at' (karamul ao ao) i)) (2 ^ k - 1) (karamul ae ae)
    (by intro i hi; rw [length_karamul, lae]; omega)
  rw [ev_addAt _ _ _ _ (by rw [h1, length_karamul, lae]; omega), h2, ev_karamul k ae ae lae lae _ hs, pow_zero, mul_one]
  have hsum : ev (r ^ 2) (karamul ao ao) = ∑ i ∈ range (2 ^ k - 1), algebraMap R A (at' (karamul ao ao) i) * (r ^ 2) ^ i +
      algebraMap R A (at' (karamul ao ao) (2 ^ k - 1)) * (r ^ 2) ^ (2 ^ k - 1) := by
    rw [ev_ge _ _ (2 ^ k - 1 + 1) (by rw [length_karamul, lao]; omega), sum_range_succ]
  have hlast : (r ^ 2) ^ (2 ^ k - 1) * r ^ 2 = -1 := by rw [← pow_succ, show 2 ^ k - 1 + 1 = 2 ^ k by omega, hs]
  have hsh : ∑ i ∈ range (2 ^ k - 1), algebraMap R A (-at' (karamul ao ao) i) * (r ^ 2) ^ (i + 1) =
      - (r ^ 2) * ∑ i ∈ range (2 ^ k - 1), algebraMap R A (at' (karamul ao ao) i) * (r ^ 2) ^ i := by
    rw [mul_sum]; apply sum_congr rfl; intro i _; rw [map_neg]; ring
  have hm := ev_karamul k ao ao lao lao _ hs
  rw [hsum] at hm
  rw [hsh]
  linear_combination (-(r ^ 2)) * hm + algebraMap R A (at' (karamul ao ao) (2 ^ k - 1)) * hlast

theorem lift_loop (a : List R) (N : Nat) (hN : N ≤ a.length) :
    ((List.range N).foldl (fun r i => r.set (2 * i) (at' a i)) (List.replicate (2 * a.length) 0)).length = 2 * a.length ∧
    ∀ j, at' ((List.range N).foldl (fun r i => r.set (2 * i) (at' a i)) (List.replicate (2 * a.length) 0)) j =
      if j % 2 = 0 ∧ j / 2 < N then at' a (j / 2) else 0 := by
  induction N with
  | zero =>
    refine ⟨by simp, fun j => ?_⟩
    unfold at'; rw [List.getD_eq_getElem?_getD]
    by_cases h : j < 2 * a.length
    · simp [h]
    · simp [h]
  | succ N ih =>
    obtain ⟨h1, h2⟩ := ih (by omega)
    simp only [List.range_succ, List.foldl_append, List.foldl_cons, List.foldl_nil]
    refine ⟨by rw [List.length_set, h1], fun j => ?_⟩
    have hset : ∀ (l : List R) (i : Nat) (v : R), at' (l.set i v) j = if i = j ∧ j < l.length then v else at' l j := by
      intro l i v
      unfold at'
      simp only [List.getD_eq_getElem?_getD, List.getElem?_set]
      by_cases h : i = j
      · subst h
        by_cases h' : i < l.length <;> simp [h']
      · simp [h]
    rw [hset, h1, h2 j]
    by_cases h : 2 * N = j
    · rw [if_pos ⟨h, by omega⟩, if_pos ⟨by omega, by omega⟩]; congr 1; omega
    · rw [if_neg (by tauto)]
      by_cases h3 : j % 2 = 0 ∧ j / 2 < N
      · rw [if_pos h3, if_pos ⟨h3.1, by omega⟩]
      · rw [if_neg h3, if_neg (by omega)]

@[simp] theorem length_lift (a : List R) : (lift a).length = 2 * a.length := (lift_loop a _ (le_refl _)).1

theorem at'_lift (a : List R) (j : Nat) : at' (lift a) j = if j % 2 = 0 then at' a (j / 2) else 0 := by
  unfold lift
  rw [(lift_loop a _ (le_refl _)).2 j]
  by_cases h : j % 2 = 0
  · by_cases h2 : j / 2 < a.length
    · rw [if_pos ⟨h, h2⟩, if_pos h]
    · rw [if_neg (by tauto), if_pos h, at'_ge _ _ (by omega)]
  · rw [if_neg (by tauto), if_neg h]

theorem ev_lift (a : List R) (r : A) : ev r (lift a) = ev (r ^ 2) a := by
  rw [ev_even_odd (lift a) a.length (length_lift a) r]
  have h1 : ((List.range a.length).map fun i => at' (lift a) (2 * i)) = a := by
    apply List.ext_getElem
    · simp
    · intro i h1 h2
      simp only [List.getElem_map, List.getElem_range, at'_lift]
      rw [if_pos (by omega), show 2 * i / 2 = i by omega, at'_lt _ _ h2]
  have h2 : ev (r ^ 2) ((List.range a.length).map fun i => at' (lift a) (2 * i + 1)) = 0 := by
    rw [ev_map_range]
    apply sum_eq_zero
    intro i _
    rw [at'_lift, if_neg (by omega)]; simp
  rw [h1, h2]; ring

end Verif.Ring
