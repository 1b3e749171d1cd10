import Verif.Epervier.Model
import Verif.Epervier.Spec
import Verif.Contract.Props
import Mathlib.Algebra.BigOperators.Fin
import Mathlib.Algebra.BigOperators.Intervals
import Mathlib.Tactic.LinearCombination

/-! Helper lemmas for key recovery. -/

namespace Verif.Epervier

open Verif Verif.Packing Verif.NTT Verif.Ring Verif.Contract Verif.Falcon Verif.Hash
open Finset (prod_range_succ)

theorem W_val : W = 115792089237316195423570985008687907853269984665640564039457584007913129639936 := by unfold W; norm_num

theorem fold_sq (x : ℕ) (h : x < 65536) : ((mulw (foldCoef x) (foldCoef x) : ℕ) : ℤ) = signed x * signed x ∧ mulw (foldCoef x) (foldCoef x) < 2 ^ 32 := by
  have hW := W_big
  by_cases hx : x < 12289
  · have hb := foldCoef_bound x hx
    have hb2 : foldCoef x * foldCoef x ≤ 6144 * 6144 := Nat.mul_le_mul hb hb
    have e : mulw (foldCoef x) (foldCoef x) = foldCoef x * foldCoef x := by unfold mulw; exact Nat.mod_eq_of_lt (by omega)
    rw [e]
    refine ⟨?_, by omega⟩
    push_cast
    rw [foldCoef_sq x hx, bmod_q]
    unfold signed
    split
    · rw [show ((x : ℤ) + 6144) % 12289 = x + 6144 - 12289 by omega]; ring
    · rw [show ((x : ℤ) + 6144) % 12289 = x + 6144 by omega]; ring
  · have hf : foldCoef x = (W + 12289 - x) % W := by
      unfold foldCoef gtw qs1 qF addw mulw
      rw [if_pos (by omega), show subw 1 1 = 0 by unfold subw; rw [Nat.mod_eq_of_lt (a := 1) (by omega), show 1 + (W - 1) = W by omega, Nat.mod_self],
        one_mul, zero_mul, Nat.zero_mod, add_zero, Nat.mod_mod]
      unfold subw
      rw [Nat.mod_mod, Nat.mod_eq_of_lt (a := x) (by omega)]
      congr 1
      omega
    have hs : signed x = (x : ℤ) - 12289 := by unfold signed; rw [if_pos (by omega)]
    obtain ⟨d, rfl⟩ : ∃ d, x = 12289 + d := ⟨x - 12289, by omega⟩
    have hd : d * d < 2 ^ 32 := by nlinarith
    have e : mulw (foldCoef (12289 + d)) (foldCoef (12289 + d)) = d * d := by
      rw [hf, show W + 12289 - (12289 + d) = W - d by omega]
      unfold mulw
      rw [← Nat.mul_mod]
      have : (W - d) * (W - d) + (2 * d) * W = d * d + W * W := by
        obtain ⟨k, hk⟩ : ∃ k, W = d + k := ⟨W - d, by omega⟩
        rw [hk, Nat.add_sub_cancel_left]; ring
      have h2 : ((W - d) * (W - d) + (2 * d) * W) % W = (d * d + W * W) % W := by rw [this]
      rw [Nat.add_mul_mod_self_right, Nat.add_mul_mod_self_right, Nat.mod_eq_of_lt (a := d * d) (by omega)] at h2
      exact h2
    rw [e, hs]
    exact ⟨by push_cast; ring, hd⟩

theorem pairLoop_eq (r1 r2 : ℕ → ℕ) (h1 : ∀ off, r1 off < 65536) (h2 : ∀ off, r2 off < 65536) : ∀ (m i norm fuel : ℕ), i + m = 511 → m < fuel → norm ≤ i * 2 ^ 33 →
    ((pairLoop r1 r2 fuel (32 * (i + 1)) norm : ℕ) : ℤ) = norm + ((List.range' i m).map fun j => signed (r1 (32 * (j + 1))) * signed (r1 (32 * (j + 1)))).sum +
      ((List.range' i m).map fun j => signed (r2 (32 * (j + 1))) * signed (r2 (32 * (j + 1)))).sum := by
  intro m
  induction m with
  | zero =>
    intro i norm fuel hi hf hn
    cases fuel with
    | zero => omega
    | succ fuel => unfold pairLoop; rw [if_neg (by omega)]; simp
  | succ m ih =>
    intro i norm fuel hi hf hn
    cases fuel with
    | zero => omega
    | succ fuel =>
      have hW := W_big
      obtain ⟨a1, a2⟩ := fold_sq _ (h1 (32 * (i + 1)))
      obtain ⟨b1, b2⟩ := fold_sq _ (h2 (32 * (i + 1)))
      have hi' : i * 2 ^ 33 ≤ 511 * 2 ^ 33 := Nat.mul_le_mul_right _ (by omega)
      unfold pairLoop
      rw [if_pos (by omega), show 32 * (i + 1) + 32 = 32 * ((i + 1) + 1) by ring]
      dsimp only
      unfold addw
      rw [Nat.mod_eq_of_lt (a := norm + _) (by omega), Nat.mod_eq_of_lt (by omega)]
      rw [ih (i + 1) _ fuel (by omega) (by omega) (by omega), List.range'_succ, List.map_cons, List.sum_cons, List.map_cons, List.sum_cons, ← a1, ← b1]
      push_cast
      ring

theorem get_lt (a : List ℕ) (b : ℕ) (hb : 0 < b) (h : ∀ x ∈ a, x < b) (i : ℕ) : a[i]! < b := by
  by_cases hi : i < a.length
  · rw [getElem!_pos a i hi]; exact h _ (List.getElem_mem hi)
  · rw [getElem!_neg a i hi]; exact hb

theorem sum_signed (a : List ℕ) (hl : a.length = 512) :
    ((List.range' 0 511).map fun j => signed a[(32 * (j + 1) - 32) / 32]! * signed a[(32 * (j + 1) - 32) / 32]!).sum = normSq ((a.take 511).map signed) := by
  unfold normSq
  refine congrArg List.sum ?_
  rw [List.map_map, ← List.range_eq_range']
  apply List.ext_getElem
  · rw [List.length_map, List.length_map, List.length_range, List.length_take, hl]; rfl
  · intro i k1 k2
    rw [List.length_map, List.length_range] at k1
    simp only [List.getElem_map, List.getElem_range, Function.comp_apply, List.getElem_take]
    rw [show (32 * (i + 1) - 32) / 32 = i by omega, getElem!_pos a i (by omega)]

theorem pairNorm (a b : List ℕ) (hl : a.length = 512) (hl' : b.length = 512) (ha : ∀ x ∈ a, x < 65536) (hb : ∀ x ∈ b, x < 65536) :
    ((pairLoop (fun off => a[(off - 32) / 32]!) (fun off => b[(off - 32) / 32]!) 512 32 0 : ℕ) : ℤ) = normSq ((a.take 511).map signed) + normSq ((b.take 511).map signed) := by
  have := pairLoop_eq (fun off => a[(off - 32) / 32]!) (fun off => b[(off - 32) / 32]!) (fun off => get_lt a _ (by norm_num) ha _) (fun off => get_lt b _ (by norm_num) hb _)
    511 0 0 512 (by omega) (by omega) (by omega)
  rw [show 32 * (0 + 1) = 32 by norm_num] at this
  rw [this, sum_signed a hl, sum_signed b hl']
  push_cast
  ring

/-! ### The inverse table -/

theorem cast_mulmod (a b : ℕ) : ((mulmod a b qF : ℕ) : ZMod 12289) = (a : ZMod 12289) * b := by
  unfold mulmod qF
  rw [if_neg (by norm_num), ZMod.natCast_mod, Nat.cast_mul]

theorem mulmod_lt (a b : ℕ) : mulmod a b qF < 12289 := by
  unfold mulmod qF
  rw [if_neg (by norm_num)]
  exact Nat.mod_lt _ (by norm_num)

theorem get_set (l : List ℕ) (i j v : ℕ) (hi : i < l.length) : (l.set i v)[j]! = if i = j then v else l[j]! := by
  rw [List.getElem!_eq_getElem?_getD, List.getElem!_eq_getElem?_getD, List.getElem?_set]
  by_cases h : i = j
  · subst h; simp [hi]
  · simp [h]

/-- coefficient `j` in `Z_q` -/
def cf (s : List ℕ) (j : ℕ) : ZMod 12289 := ((s[j]! : ℕ) : ZMod 12289)

theorem prefixes_spec (m : ℕ) (s : List ℕ) : (prefixes (m + 1) s).length = m + 1 ∧ ∀ i ≤ m, cf (prefixes (m + 1) s) i = ∏ j ∈ Finset.range (i + 1), cf s j := by
  have key : ∀ k ≤ m, ∀ st, st = (List.range k).foldl (fun (st : Nat × List Nat) k =>
      (mulmod st.1 s[k + 1]! qF, st.2.set (k + 1) (mulmod st.1 s[k + 1]! qF))) (s[0]!, (List.replicate (m + 1) 0).set 0 s[0]!) →
      ((st.1 : ℕ) : ZMod 12289) = ∏ j ∈ Finset.range (k + 1), cf s j ∧ st.2.length = m + 1 ∧ ∀ i ≤ k, cf st.2 i = ∏ j ∈ Finset.range (i + 1), cf s j := by
    intro k
    induction k with
    | zero =>
      rintro hk st rfl
      refine ⟨by simp [cf], by simp, ?_⟩
      intro i hi
      obtain rfl : i = 0 := by omega
      simp only [List.range_zero, List.foldl_nil, cf]
      rw [get_set _ _ _ _ (by simp), if_pos rfl]
      simp
    | succ k ih =>
      rintro hk st rfl
      rw [List.range_succ, List.foldl_append]
      obtain ⟨h1, h2, h3⟩ := ih (by omega) _ rfl
      generalize (List.range k).foldl _ _ = st at h1 h2 h3
      simp only [List.foldl_cons, List.foldl_nil]
      have e : ((mulmod st.1 s[k + 1]! qF : ℕ) : ZMod 12289) = ∏ j ∈ Finset.range (k + 1 + 1), cf s j := by
        rw [cast_mulmod, h1, prod_range_succ _ (k + 1)]; rfl
      refine ⟨e, by simpa using h2, ?_⟩
      intro i hi
      unfold cf
      rw [get_set _ _ _ _ (by omega)]
      split
      · rename_i h; rw [← h]; exact e
      · exact h3 i (by omega)
  have := key m le_rfl _ rfl
  exact ⟨this.2.1, this.2.2⟩

theorem suffixes_spec (m : ℕ) (s : List ℕ) (hint : ℕ) : (suffixes (m + 1) s hint).length = m + 1 ∧
    ∀ i ≤ m, cf (suffixes (m + 1) s hint) i = (hint : ZMod 12289) * ∏ j ∈ Finset.Ico (i + 1) (m + 1), cf s j := by
  have key : ∀ k ≤ m, ∀ inv, inv = (List.range k).foldl (fun inv k => inv.set (m + 1 - 2 - k) (mulmod inv[m + 1 - 1 - k]! s[m + 1 - 1 - k]! qF))
      ((List.replicate (m + 1) 0).set (m + 1 - 1) hint) →
      inv.length = m + 1 ∧ ∀ i, m - k ≤ i → i ≤ m → cf inv i = (hint : ZMod 12289) * ∏ j ∈ Finset.Ico (i + 1) (m + 1), cf s j := by
    intro k
    induction k with
    | zero =>
      rintro hk inv rfl
      refine ⟨by simp, ?_⟩
      intro i hi hi'
      obtain rfl : i = m := by omega
      simp only [List.range_zero, List.foldl_nil, cf]
      rw [get_set _ _ _ _ (by simp), if_pos (by omega)]
      simp
    | succ k ih =>
      rintro hk inv rfl
      rw [List.range_succ, List.foldl_append]
      obtain ⟨h2, h3⟩ := ih (by omega) _ rfl
      generalize (List.range k).foldl _ _ = inv at h2 h3
      simp only [List.foldl_cons, List.foldl_nil]
      refine ⟨by simpa using h2, ?_⟩
      intro i hi hi'
      unfold cf
      rw [get_set _ _ _ _ (by omega)]
      split
      · rename_i h
        subst h
        rw [cast_mulmod]
        have e := h3 (m - k) (by omega) (by omega)
        unfold cf at e
        rw [show m + 1 - 1 - k = m - k by omega, e, show m + 1 - 2 - k + 1 = m - k by omega, Finset.prod_eq_prod_Ico_succ_bot (by omega : m - k < m + 1)]
        ring
      · exact h3 i (by omega) hi'
  have := key m le_rfl _ rfl
  exact ⟨this.1, fun i hi => this.2 i (by omega) hi⟩

theorem inverses_spec (m : ℕ) (s : List ℕ) (hint : ℕ) : (inverses (m + 1) s hint).length = m + 1 ∧
    ∀ i ≤ m, cf s i * cf (inverses (m + 1) s hint) i = (hint : ZMod 12289) * ∏ j ∈ Finset.range (m + 1), cf s j := by
  obtain ⟨p1, p2⟩ := prefixes_spec m s
  obtain ⟨q1, q2⟩ := suffixes_spec m s hint
  have key : ∀ k ≤ m, ∀ inv, inv = (List.range k).foldl (fun inv k => inv.set (k + 1) (mulmod (prefixes (m + 1) s)[k]! inv[k + 1]! qF)) (suffixes (m + 1) s hint) →
      inv.length = m + 1 ∧ ∀ i ≤ m, cf inv i = if 1 ≤ i ∧ i ≤ k then cf (prefixes (m + 1) s) (i - 1) * cf (suffixes (m + 1) s hint) i else cf (suffixes (m + 1) s hint) i := by
    intro k
    induction k with
    | zero =>
      rintro hk inv rfl
      refine ⟨q1, fun i hi => ?_⟩
      rw [if_neg (by omega)]; rfl
    | succ k ih =>
      rintro hk inv rfl
      rw [List.range_succ, List.foldl_append]
      obtain ⟨h2, h3⟩ := ih (by omega) _ rfl
      generalize (List.range k).foldl _ _ = inv at h2 h3
      simp only [List.foldl_cons, List.foldl_nil]
      refine ⟨by simpa using h2, ?_⟩
      intro i hi
      have e1 : cf (inv.set (k + 1) (mulmod (prefixes (m + 1) s)[k]! inv[k + 1]! qF)) i = if k + 1 = i then cf (prefixes (m + 1) s) k * cf inv (k + 1) else cf inv i := by
        unfold cf
        rw [get_set _ _ _ _ (by omega)]
        split
        · rw [cast_mulmod]
        · rfl
      rw [e1]
      split
      · rename_i h
        subst h
        rw [if_pos (by omega), h3 _ hi, if_neg (by omega)]
        rfl
      · rw [h3 i hi]
        by_cases hc : 1 ≤ i ∧ i ≤ k
        · rw [if_pos hc, if_pos (by omega)]
        · rw [if_neg hc, if_neg (by omega)]
  obtain ⟨k1, k2⟩ := key m le_rfl _ rfl
  refine ⟨k1, fun i hi => ?_⟩
  have e := k2 i hi
  rw [show cf (inverses (m + 1) s hint) i = _ from e]
  rcases Nat.eq_zero_or_pos i with rfl | hpos
  · rw [if_neg (by omega), q2 0 hi, Finset.range_eq_Ico, Finset.prod_eq_prod_Ico_succ_bot (by omega : 0 < m + 1)]
    ring
  · rw [if_pos (by omega), p2 (i - 1) (by omega), q2 i hi, show i - 1 + 1 = i by omega, ← Finset.prod_range_mul_prod_Ico (cf s) (show i + 1 ≤ m + 1 by omega), prod_range_succ]
    ring

theorem sub_one (v : ℕ) (h : v < 12289) : (512 * subw 1 v) % W = 0 ↔ v = 1 := by
  unfold subw
  rw [W_val]
  omega

theorem hintSum_zero (s : List ℕ) (hint : ℕ) : hintSum 512 s (inverses 512 s hint) = 0 ↔ (hint : ZMod 12289) * ∏ j ∈ Finset.range 512, cf s j = 1 := by
  obtain ⟨_, h⟩ := inverses_spec 511 s hint
  rw [show 511 + 1 = 512 by norm_num] at h
  generalize inverses 512 s hint = inv at h
  generalize hP : (hint : ZMod 12289) * ∏ j ∈ Finset.range 512, cf s j = p at h
  have hv : ∀ i < 512, mulmod s[i]! inv[i]! qF = p.val := by
    intro i hi
    have e := h i (by omega)
    unfold cf at e
    rw [← cast_mulmod] at e
    rw [← e, ZMod.val_natCast, Nat.mod_eq_of_lt (mulmod_lt _ _)]
  have hlt : p.val < 12289 := ZMod.val_lt p
  have key : ∀ k ≤ 512, (List.range k).foldl (fun norm i => addw norm (subw 1 (mulmod s[i]! inv[i]! qF))) 0 = (k * subw 1 p.val) % W := by
    intro k
    induction k with
    | zero => intro _; simp
    | succ k ih =>
      intro hk
      rw [List.range_succ, List.foldl_append, ih (by omega)]
      simp only [List.foldl_cons, List.foldl_nil]
      rw [hv k (by omega)]
      unfold addw
      rw [Nat.mod_add_mod, Nat.add_mul, Nat.one_mul]
  unfold hintSum
  rw [key 512 le_rfl, sub_one _ hlt]
  constructor
  · intro h1
    rw [← ZMod.natCast_zmod_val p, h1, Nat.cast_one]
  · rintro rfl
    rfl

theorem cast_wrap (x y : ℕ) (hy : y < 65536) : ((addmod x (subw qF y) qF : ℕ) : ZMod 12289) = (x : ZMod 12289) - ((wrapped y : ℤ) : ZMod 12289) := by
  have e : ((subw qF y : ℕ) : ℤ) = 12289 - wrapped y := by
    unfold subw wrapped qF
    rw [W_val]
    split <;> omega
  have e2 : ((subw qF y : ℕ) : ZMod 12289) = - ((wrapped y : ℤ) : ZMod 12289) := by
    rw [← Int.cast_natCast (subw qF y), e]
    push_cast
    rw [show (12289 : ZMod 12289) = 0 from ZMod.natCast_self 12289]
    ring
  unfold addmod
  rw [if_neg (by unfold qF; norm_num), show ((((x + subw qF y) % qF : ℕ)) : ZMod 12289) = ((x + subw qF y : ℕ) : ZMod 12289) from ZMod.natCast_mod _ _, Nat.cast_add, e2]
  ring

end Verif.Epervier
