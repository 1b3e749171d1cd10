import Verif.Tetration.Core

/-! From values at the points back to polynomials. -/

namespace Verif.Tetration

open Verif Verif.Ring
open Verif.NTT (addmod mulmod toZ IsProduct cast_addmod cast_mulmod addmod_lt mulmod_lt length_toZ)
open Finset Polynomial

theorem getD_toZ (a : List Nat) (i : Nat) : (toZ 12289 a).getD i 0 = cf a i := by
  unfold NTT.toZ cf
  by_cases h : i < a.length
  · simp [List.getD_eq_getElem?_getD, h]
  · simp [List.getD_eq_getElem?_getD, List.getElem?_eq_none (show a.length ≤ i by omega)]

theorem eval_toPoly (l : List (ZMod 12289)) (r : ZMod 12289) : (toPoly l).eval r = ∑ i ∈ range l.length, l.getD i 0 * r ^ i := by
  unfold toPoly
  rw [eval_finsetSum]
  simp

theorem evN_eq {n : Nat} {a : List Nat} (h : a.length = n) (r : ZMod 12289) : evN n a r = (toPoly (toZ 12289 a)).eval r := by
  rw [eval_toPoly, length_toZ, h]
  unfold evN
  exact sum_congr rfl fun i _ => by rw [getD_toZ]

theorem evN_take {n : Nat} {a : List Nat} (h : n ≤ a.length) (r : ZMod 12289) : evN n a r = (toPoly (toZ 12289 (a.take n))).eval r := by
  rw [← evN_eq (n := n) (show (a.take n).length = n by rw [List.length_take]; omega)]
  unfold evN
  refine sum_congr rfl fun i hi => ?_
  have hi : i < n := by simpa using hi
  unfold cf
  rw [List.getD_eq_getElem?_getD, List.getD_eq_getElem?_getD, List.getElem?_take, if_pos hi]

theorem ev_eq_eval (l : List (ZMod 12289)) (r : ZMod 12289) : ev r l = (toPoly l).eval r := by
  rw [← aeval_toPoly, coe_aeval_eq_eval]

/-- Lists with the same values at all points are equal. -/
theorem eq_of_values {k : Nat} (h1 : 1 ≤ k) (h9 : k ≤ 9) (l l' : List (ZMod 12289)) (hl : l.length = 2 ^ k) (hl' : l'.length = 2 ^ k)
    (h : ∀ x < 2 ^ k, (toPoly l).eval (pt k x) = (toPoly l').eval (pt k x)) : l = l' := by
  apply toPoly_inj _ _ (by omega)
  refine Polynomial.eq_of_degrees_lt_of_eval_index_eq (s := range (2 ^ k)) (v := pt k) ?_ ?_ ?_ ?_
  · intro x hx y hy
    exact pt_inj h1 h9 (by simpa using hx) (by simpa using hy)
  · rw [card_range]; exact degree_toPoly_lt _ _ hl.le
  · rw [card_range]; exact degree_toPoly_lt _ _ hl'.le
  · intro x hx; exact h x (by simpa using hx)

theorem mem_getD {b : List Nat} {n : Nat} (hl : b.length = n) (h : ∀ x < n, b.getD x 0 < 12289) : ∀ x ∈ b, x < 12289 := by
  intro x hx
  obtain ⟨i, hi, rfl⟩ := List.getElem_of_mem hx
  have := h i (by omega)
  rwa [List.getD_eq_getElem?_getD, List.getElem?_eq_getElem hi] at this

theorem getD_mem {b : List Nat} {i : Nat} (h : i < b.length) : b.getD i 0 ∈ b := by
  rw [List.getD_eq_getElem?_getD, List.getElem?_eq_getElem h]
  exact List.getElem_mem h

/-- Reduced lists with the same residues are equal. -/
theorem eq_of_cf {a b : List Nat} (hl : a.length = b.length) (ha : ∀ x ∈ a, x < 12289) (hb : ∀ x ∈ b, x < 12289) (h : ∀ i < a.length, cf a i = cf b i) : a = b := by
  apply List.ext_getElem hl
  intro i h1 h2
  have e := h i h1
  unfold cf at e
  rw [List.getD_eq_getElem?_getD, List.getElem?_eq_getElem h1, List.getD_eq_getElem?_getD, List.getElem?_eq_getElem h2, Option.getD_some, Option.getD_some,
    ZMod.natCast_eq_natCast_iff] at e
  exact Nat.ModEq.eq_of_lt_of_lt e (ha _ (List.getElem_mem _)) (hb _ (List.getElem_mem _))

theorem two_pow_lt (k : Nat) : k < 2 ^ k + 1 := Nat.lt_succ_of_lt Nat.lt_two_pow_self

/-- The forward transform on any length it accepts. -/
theorem nTT_ok {k : Nat} (h1 : 1 ≤ k) (h9 : k ≤ 9) (a : List Nat) (l1 : 2 ^ k ≤ a.length) (l2 : 2 * a.length < 3 * 2 ^ k) :
    ∃ b, nTT a = .ok b ∧ b.length = 2 ^ k ∧ (∀ x ∈ b, x < 12289) ∧ ∀ x < 2 ^ k, cf b x = (toPoly (toZ 12289 (a.take (2 ^ k)))).eval (pt k x) := by
  have := two_pow_lt k
  obtain ⟨b, e, l, r, v⟩ := nttLoop_ok k h1 h9 (a.length + 1) a (by omega) l1 l2
  exact ⟨b, e, l, mem_getD l r, fun x hx => by rw [v x hx, evN_take l1]⟩

theorem iNTT_ok {k : Nat} (h1 : 1 ≤ k) (h9 : k ≤ 9) (c : List Nat) (l : c.length = 2 ^ k) (hc : ∀ i < 2 ^ (k - 1), c.getD (2 * i + 1) 0 ≤ 12289) :
    ∃ d, iNTT c = .ok d ∧ d.length = 2 ^ k ∧ (∀ x ∈ d, x < 12289) ∧ ∀ x < 2 ^ k, (toPoly (toZ 12289 d)).eval (pt k x) = cf c x := by
  have := two_pow_lt k
  obtain ⟨d, e, l, r, v⟩ := inttLoop_ok k h1 h9 (c.length + 1) c (by omega) l hc
  exact ⟨d, e, l, mem_getD l r, fun x hx => by rw [← v x hx, evN_eq l]⟩

theorem mulNTT_ok {a b : List Nat} (h : a.length = b.length) :
    mulNTT a b = .ok ((List.range a.length).map fun i => mulmod (a.getD i 0) (b.getD i 0) 12289) := by
  unfold mulNTT
  rw [if_pos h]
  apply fill_ok
  intro i hi
  rw [idx_ok hi, idx_ok (by omega)]; rfl

/-- The common part of the two products. -/
theorem half {k : Nat} (h1 : 1 ≤ k) (h9 : k ≤ 9) (a x y : List Nat) (bz : List (ZMod 12289)) (la : a.length = 2 ^ k) (lb : bz.length = 2 ^ k) (lx : x.length = 2 ^ k) (ly : y.length = 2 ^ k)
    (hx : ∀ i < 2 ^ k, cf x i = (toPoly (toZ 12289 a)).eval (pt k i)) (hy : ∀ i < 2 ^ k, cf y i = (toPoly bz).eval (pt k i)) :
    ∃ z c, mulNTT x y = .ok z ∧ iNTT z = .ok c ∧ c.length = 2 ^ k ∧ (∀ t ∈ c, t < 12289) ∧ toZ 12289 c = negMul (2 ^ k) (toZ 12289 a) bz := by
  have lz : ((List.range x.length).map fun i => mulmod (x.getD i 0) (y.getD i 0) 12289).length = 2 ^ k := by simp [lx]
  obtain ⟨d, e, l, r, v⟩ := iNTT_ok h1 h9 _ lz (fun i hi => by
    have e : 2 ^ k = 2 * 2 ^ (k - 1) := by rw [← pow_succ']; congr 1; omega
    rw [getD_map (by omega)]; exact (mulmod_lt q_pos _ _).le)
  refine ⟨_, d, mulNTT_ok (by omega), e, l, r, ?_⟩
  apply eq_of_values h1 h9 _ _ (by simpa using l) (by simp)
  intro i hi
  rw [v i hi, cf_map (by omega), cast_mulmod q_pos, ← ev_eq_eval, ev_negMul _ _ (pt_pow k h1 h9 i hi) _ _ (by simpa using la) lb, ev_eq_eval, ev_eq_eval, ← hx i hi, ← hy i hi]
  rfl

end Verif.Tetration
