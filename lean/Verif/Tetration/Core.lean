import Verif.Tetration.Model
import Verif.NTT.Core
import Verif.Falcon.NttLemmas
import Mathlib.LinearAlgebra.Lagrange

/-! Correctness of the recursive transforms. -/

namespace Verif.Tetration

open Verif
open Verif.NTT (addmod mulmod toZ IsProduct cast_addmod cast_mulmod addmod_lt mulmod_lt)
open Finset

theorem fill_ok {f : Nat → Except Err Nat} {g : Nat → Nat} : ∀ n, (∀ i < n, f i = .ok (g i)) → fill n f = .ok ((List.range n).map g) := by
  intro n
  induction n with
  | zero => intro _; rfl
  | succ n ih =>
    intro h
    unfold fill
    rw [ih fun i hi => h i (by omega)]
    simp only [bind, Except.bind, h n (by omega), pure, Except.pure, List.range_succ, List.map_append, List.map_cons, List.map_nil]

/-- A loop in which some entry panics, the others not failing otherwise, panics. -/
theorem fill_panic {f : Nat → Except Err Nat} {e : Err} : ∀ n, (∀ i < n, f i = .error e ∨ ∃ x, f i = .ok x) → (∃ i < n, f i = .error e) → fill n f = .error e := by
  intro n
  induction n with
  | zero => rintro _ ⟨i, hi, _⟩; omega
  | succ n ih =>
    intro h ⟨i, hi, he⟩
    unfold fill
    by_cases hx : ∃ i < n, f i = .error e
    · rw [ih (fun i hi => h i (by omega)) hx]; rfl
    · have : i = n := by
        by_contra hne
        exact hx ⟨i, by omega, he⟩
      subst this
      have ok : ∀ j < i, f j = .ok (match f j with | .ok x => x | .error _ => 0) := by
        intro j hj
        rcases h j (by omega) with h' | ⟨x, h'⟩
        · exact absurd ⟨j, hj, h'⟩ hx
        · rw [h']
      rw [fill_ok i ok]
      simp only [bind, Except.bind, he]

theorem idx_ok {l : List Nat} {i : Nat} (h : i < l.length) : idx l i = .ok (l.getD i 0) := if_pos h

theorem idx_panic {l : List Nat} {i : Nat} (h : l.length ≤ i) : idx l i = .error (.revert "panic") := if_neg (by omega)

theorem csub_ok {a b : Nat} (h : b ≤ a) : csub a b = .ok (a - b) := if_pos h

theorem csub_panic {a b : Nat} (h : a < b) : csub a b = .error (.revert "panic") := if_neg (by omega)

/-! ## The tables -/

/-- Entries from position `p` on are the inverses of `p`, `p + 1`, ... -/
def rowOk : Nat → List Nat → Bool
  | _, [] => true
  | p, x :: r => (p == 0 || p * x % 12289 == 1) && decide (x < 12289) && rowOk (p + 1) r

def rowsOk : Nat → List (List Nat) → Bool
  | _, [] => true
  | p, r :: rs => rowOk p r && rowsOk (p + 64) rs

theorem rowOk_get : ∀ (l : List Nat) (p i : Nat), rowOk p l = true → i < l.length → p + i ≠ 0 → (p + i) * l.getD i 0 % 12289 = 1 ∧ l.getD i 0 < 12289 := by
  intro l
  induction l with
  | nil => intro p i _ h; simp at h
  | cons x r ih =>
    intro p i h hi hp
    simp only [rowOk, Bool.and_eq_true, Bool.or_eq_true, beq_iff_eq, decide_eq_true_eq] at h
    obtain ⟨⟨h1, h2⟩, h3⟩ := h
    cases i with
    | zero => exact ⟨by rcases h1 with h1 | h1; · omega
                        · simpa using h1, h2⟩
    | succ i =>
      have := ih (p + 1) i h3 (by simpa using hi) (by omega)
      rw [show p + (i + 1) = p + 1 + i by omega]
      simpa using this

theorem rowsOk_get : ∀ (l : List (List Nat)) (p i : Nat), rowsOk p l = true → i < l.length → rowOk (p + 64 * i) (l.getD i []) = true := by
  intro l
  induction l with
  | nil => intro p i _ h; simp at h
  | cons x r ih =>
    intro p i h hi
    simp only [rowsOk, Bool.and_eq_true] at h
    cases i with
    | zero => simpa using h.1
    | succ i =>
      have := ih (p + 64) i h.2 (by simpa using hi)
      rw [show p + 64 * (i + 1) = p + 64 + 64 * i by omega]
      simpa using this

theorem rows_ok : rowsOk 0 invRows = true := by decide +kernel

theorem rows_shape : invRows.length = 193 ∧ (∀ i < 192, (invRows.getD i []).length = 64) ∧ (invRows.getD 192 []).length = 1 := by decide +kernel

theorem invAt_spec (x : Nat) (h0 : 0 < x) (h : x < 12289) : ∃ y, invAt x = .ok y ∧ x * y % 12289 = 1 ∧ y < 12289 := by
  obtain ⟨h1, h2, h3⟩ := rows_shape
  refine ⟨_, if_pos h, ?_⟩
  have r := rowsOk_get invRows 0 (x / 64) rows_ok (by omega)
  have := rowOk_get _ _ (x % 64) r (by
    by_cases h' : x / 64 < 192
    · rw [h2 _ h']; omega
    · rw [show x / 64 = 192 by omega, h3]; omega) (by omega)
  rwa [show 0 + 64 * (x / 64) + x % 64 = x by omega] at this

/-- What the proofs need of the table for size `n`. -/
def tabOk (n : Nat) : Bool :=
  decide ((w n).length = n) && (List.range (n / 2)).all fun i =>
    decide (0 < (w n).getD (2 * i) 0) && decide ((w n).getD (2 * i) 0 < 12289) && decide ((w n).getD (2 * i + 1) 0 + (w n).getD (2 * i) 0 = 12289) &&
    (n == 2 || decide ((w n).getD (2 * i) 0 * (w n).getD (2 * i) 0 % 12289 = (w (n / 2)).getD i 0))

theorem tabs_ok : ∀ k < 9, tabOk (2 ^ (k + 1)) = true := by decide +kernel

theorem w_other (n : Nat) (h : ∀ k, 1 ≤ k → k ≤ 9 → n ≠ 2 ^ k) : w n = [] := by
  unfold w
  have g1 : n ≠ 2 := h 1 (by omega) (by omega)
  have g2 : n ≠ 4 := h 2 (by omega) (by omega)
  have g3 : n ≠ 8 := h 3 (by omega) (by omega)
  have g4 : n ≠ 16 := h 4 (by omega) (by omega)
  have g5 : n ≠ 32 := h 5 (by omega) (by omega)
  have g6 : n ≠ 64 := h 6 (by omega) (by omega)
  have g7 : n ≠ 128 := h 7 (by omega) (by omega)
  have g8 : n ≠ 256 := h 8 (by omega) (by omega)
  have g9 : n ≠ 512 := h 9 (by omega) (by omega)
  rw [if_neg g1, if_neg g2, if_neg g3, if_neg g4, if_neg g5, if_neg g6, if_neg g7, if_neg g8, if_neg g9]

/-- Evaluation point `x` of the transform of size `2^k`. -/
def pt (k x : Nat) : ZMod 12289 := (((w (2 ^ k)).getD x 0 : Nat) : ZMod 12289)

theorem tab {k : Nat} (h1 : 1 ≤ k) (h9 : k ≤ 9) : (w (2 ^ k)).length = 2 ^ k ∧ ∀ i < 2 ^ (k - 1), 0 < (w (2 ^ k)).getD (2 * i) 0 ∧ (w (2 ^ k)).getD (2 * i) 0 < 12289 ∧
    pt k (2 * i + 1) = - pt k (2 * i) ∧ (2 ≤ k → pt k (2 * i) ^ 2 = pt (k - 1) i) := by
  obtain ⟨j, rfl⟩ : ∃ j, k = j + 1 := ⟨k - 1, by omega⟩
  have := tabs_ok j (by omega)
  unfold tabOk at this
  simp only [Bool.and_eq_true, List.all_eq_true, List.mem_range, decide_eq_true_eq, Bool.or_eq_true, beq_iff_eq] at this
  obtain ⟨h, h'⟩ := this
  refine ⟨h, fun i hi => ?_⟩
  have e : 2 ^ (j + 1) / 2 = 2 ^ j := by rw [pow_succ]; omega
  simp only [Nat.add_sub_cancel] at hi ⊢
  obtain ⟨⟨⟨a1, a2⟩, a3⟩, a4⟩ := h' i (by omega)
  refine ⟨a1, a2, ?_, ?_⟩
  · have : (((w (2 ^ (j + 1))).getD (2 * i + 1) 0 + (w (2 ^ (j + 1))).getD (2 * i) 0 : Nat) : ZMod 12289) = 0 := by rw [a3]; rfl
    push_cast at this
    exact eq_neg_of_add_eq_zero_left this
  · intro hj
    rcases a4 with a4 | a4
    · exfalso
      have : 2 ^ 2 ≤ 2 ^ (j + 1) := Nat.pow_le_pow_right (by omega) hj
      omega
    · rw [e] at a4
      unfold pt
      rw [← a4, ZMod.natCast_mod]
      push_cast; ring

theorem pt_one : pt 1 0 = 1479 ∧ pt 1 1 = -1479 := by
  constructor <;> decide +kernel

theorem sq_pt {k x : Nat} (h2 : 2 ≤ k) (h9 : k ≤ 9) (hx : x < 2 ^ k) : pt k x ^ 2 = pt (k - 1) (x / 2) := by
  have t := (tab (by omega) h9).2 (x / 2) (by rw [show k = k - 1 + 1 by omega, pow_succ] at hx; omega)
  obtain ⟨_, _, t1, t2⟩ := t
  rcases Nat.mod_two_eq_zero_or_one x with h | h
  · rw [← t2 h2, show 2 * (x / 2) = x by omega]
  · rw [← t2 h2, show pt k x = pt k (2 * (x / 2) + 1) by rw [show 2 * (x / 2) + 1 = x by omega], t1, neg_sq]

/-- The points are roots of `x^n = -1`. -/
theorem pt_pow : ∀ k, 1 ≤ k → k ≤ 9 → ∀ x < 2 ^ k, pt k x ^ 2 ^ k = -1 := by
  intro k h1
  induction k, h1 using Nat.le_induction with
  | base =>
    intro _ x hx
    have : (1479 : ZMod 12289) ^ 2 = -1 := by decide +kernel
    rcases (show x = 0 ∨ x = 1 by omega) with rfl | rfl
    · rw [pt_one.1]; exact this
    · rw [pt_one.2]; simpa using this
  | succ k h1 ih =>
    intro h9 x hx
    rw [pow_succ', pow_mul, sq_pt (by omega) h9 hx]
    exact ih (by omega) _ (by rw [pow_succ] at hx; omega)

def nodupB : List Nat → Bool
  | [] => true
  | x :: l => l.all (fun y => y != x) && nodupB l

theorem nodupB_spec : ∀ l, nodupB l = true → l.Nodup := by
  intro l
  induction l with
  | nil => simp
  | cons x l ih =>
    intro h
    simp only [nodupB, Bool.and_eq_true, List.all_eq_true, bne_iff_ne] at h
    exact List.nodup_cons.2 ⟨fun hx => h.1 x hx rfl, ih h.2⟩

theorem tabs_nodup : ∀ k < 9, nodupB (w (2 ^ (k + 1))) = true ∧ (w (2 ^ (k + 1))).all (fun x => decide (x < 12289)) = true := by decide +kernel

theorem pt_inj {k : Nat} (h1 : 1 ≤ k) (h9 : k ≤ 9) {x y : Nat} (hx : x < 2 ^ k) (hy : y < 2 ^ k) (h : pt k x = pt k y) : x = y := by
  obtain ⟨j, rfl⟩ : ∃ j, k = j + 1 := ⟨k - 1, by omega⟩
  obtain ⟨n1, n2⟩ := tabs_nodup j (by omega)
  have n1 := nodupB_spec _ n1
  simp only [List.all_eq_true, decide_eq_true_eq] at n2
  have l := (tab h1 h9).1
  unfold pt at h
  rw [List.getD_eq_getElem?_getD, List.getD_eq_getElem?_getD, List.getElem?_eq_getElem (by omega), List.getElem?_eq_getElem (by omega), Option.getD_some, Option.getD_some, ZMod.natCast_eq_natCast_iff] at h
  have := Nat.ModEq.eq_of_lt_of_lt h (n2 _ (List.getElem_mem _)) (n2 _ (List.getElem_mem _))
  exact (List.Nodup.getElem_inj_iff n1).1 this

/-! ## The forward transform -/

/-- Coefficient `i` modulo `q`. -/
def cf (a : List Nat) (i : Nat) : ZMod 12289 := ((a.getD i 0 : Nat) : ZMod 12289)

theorem cf_map {n : Nat} {g : Nat → Nat} {i : Nat} (h : i < n) : cf ((List.range n).map g) i = (g i : ZMod 12289) := by
  unfold cf; simp [h]

theorem getD_map {n : Nat} {g : Nat → Nat} {i : Nat} (h : i < n) : ((List.range n).map g).getD i 0 = g i := by simp [h]

/-- Value at `r` of the first `n` coefficients. -/
def evN (n : Nat) (a : List Nat) (r : ZMod 12289) : ZMod 12289 := ∑ i ∈ range n, cf a i * r ^ i

theorem evN_split (m : Nat) (a b c : List Nat) (r : ZMod 12289) (hb : ∀ i < m, cf b i = cf a (2 * i)) (hc : ∀ i < m, cf c i = cf a (2 * i + 1)) :
    evN (2 * m) a r = evN m b (r ^ 2) + r * evN m c (r ^ 2) := by
  unfold evN
  induction m with
  | zero => simp
  | succ m ih =>
    rw [show 2 * (m + 1) = 2 * m + 1 + 1 by ring, sum_range_succ, sum_range_succ, sum_range_succ, sum_range_succ, ih (fun i hi => hb i (by omega)) (fun i hi => hc i (by omega)),
      hb m (by omega), hc m (by omega), ← pow_mul]
    ring

theorem cast_csub {b : Nat} (h : b ≤ 12289) : ((12289 - b : Nat) : ZMod 12289) = - (b : ZMod 12289) := by
  rw [Nat.cast_sub h, show ((12289 : Nat) : ZMod 12289) = 0 from rfl, zero_sub]

theorem q_pos : (0 : Nat) < 12289 := by omega

/-- The two branches of an entry of `mergeNTT`, as natural numbers. -/
def mergeVal (p0 p1 : List Nat) (k : Nat) : Nat :=
  if k % 2 = 0 then addmod (p0.getD (k / 2) 0) (mulmod ((w (p0.length * 2)).getD (2 * (k / 2)) 0) (p1.getD (k / 2) 0) 12289) 12289
  else addmod (p0.getD (k / 2) 0) (12289 - mulmod ((w (p0.length * 2)).getD (2 * (k / 2)) 0) (p1.getD (k / 2) 0) 12289) 12289

theorem mergeNTT_ok {k : Nat} (h1 : 1 ≤ k) (h9 : k + 1 ≤ 9) {p0 p1 : List Nat} (l0 : p0.length = 2 ^ k) (l1 : p1.length = 2 ^ k) :
    mergeNTT p0 p1 = .ok ((List.range (2 ^ (k + 1))).map (mergeVal p0 p1)) := by
  unfold mergeNTT
  have e : p0.length * 2 = 2 ^ (k + 1) := by rw [l0, pow_succ]
  have lw := (tab (k := k + 1) (by omega) h9).1
  rw [e]
  apply fill_ok
  intro i hi
  have : i / 2 < 2 ^ k := by rw [pow_succ] at hi; omega
  unfold mergeEntry mergeVal
  rw [e, idx_ok (by rw [lw]; omega), idx_ok (by omega), idx_ok (by omega)]
  simp only [bind, Except.bind, pure, Except.pure, q]
  split
  · rfl
  · rw [csub_ok (mulmod_lt q_pos _ _).le]

theorem mergeVal_lt (p0 p1 : List Nat) (k : Nat) : mergeVal p0 p1 k < 12289 := by
  unfold mergeVal; split <;> exact addmod_lt q_pos _ _

theorem cast_mergeVal {k : Nat} (h9 : k + 1 ≤ 9) {p0 p1 : List Nat} (l0 : p0.length = 2 ^ k) {x : Nat} (hx : x < 2 ^ (k + 1)) :
    ((mergeVal p0 p1 x : Nat) : ZMod 12289) = cf p0 (x / 2) + pt (k + 1) x * cf p1 (x / 2) := by
  have e : p0.length * 2 = 2 ^ (k + 1) := by rw [l0, pow_succ]
  have t := (tab (k := k + 1) (by omega) h9).2 (x / 2) (by simp only [Nat.add_sub_cancel]; rw [pow_succ] at hx; omega)
  unfold mergeVal
  rw [e]
  split
  · rename_i h
    rw [cast_addmod q_pos, cast_mulmod q_pos, show 2 * (x / 2) = x by omega]; rfl
  · rename_i h
    rw [cast_addmod q_pos, cast_csub (mulmod_lt q_pos _ _).le, cast_mulmod q_pos]
    have : pt (k + 1) x = - pt (k + 1) (2 * (x / 2)) := by rw [← t.2.2.1, show 2 * (x / 2) + 1 = x by omega]
    rw [this]
    unfold cf pt
    ring

theorem nttLoop_ok : ∀ k, 1 ≤ k → k ≤ 9 → ∀ (fuel : Nat) (a : List Nat), k ≤ fuel → 2 ^ k ≤ a.length → 2 * a.length < 3 * 2 ^ k →
    ∃ b, nttLoop fuel a = .ok b ∧ b.length = 2 ^ k ∧ (∀ x < 2 ^ k, b.getD x 0 < 12289) ∧ ∀ x < 2 ^ k, cf b x = evN (2 ^ k) a (pt k x) := by
  intro k h1
  induction k, h1 using Nat.le_induction with
  | base =>
    intro _ fuel a hf l1 l2
    obtain ⟨fuel, rfl⟩ : ∃ j, fuel = j + 1 := ⟨fuel - 1, by omega⟩
    have l : a.length = 2 := by omega
    refine ⟨[addmod (a.getD 0 0) (mulmod (a.getD 1 0) 1479 12289) 12289, addmod (a.getD 0 0) (12289 - mulmod (a.getD 1 0) 1479 12289) 12289], ?_, rfl, ?_, ?_⟩
    · unfold nttLoop
      rw [if_neg (by omega), idx_ok (by omega), idx_ok (by omega)]
      simp only [bind, Except.bind, pure, Except.pure, q, sqr1]
      rw [csub_ok (mulmod_lt q_pos _ _).le]
    · intro x hx
      rcases (show x = 0 ∨ x = 1 by omega) with rfl | rfl
      · exact addmod_lt q_pos _ _
      · exact addmod_lt q_pos _ _
    · intro x hx
      unfold evN
      rw [show 2 ^ 1 = 1 + 1 from rfl, sum_range_succ, sum_range_one]
      rcases (show x = 0 ∨ x = 1 by omega) with rfl | rfl
      · rw [pt_one.1, cf]
        simp only [List.getD_cons_zero]
        rw [cast_addmod q_pos, cast_mulmod q_pos]; unfold cf; push_cast; ring
      · rw [pt_one.2, cf]
        simp only [List.getD_cons_zero, List.getD_cons_succ]
        rw [cast_addmod q_pos, cast_csub (mulmod_lt q_pos _ _).le, cast_mulmod q_pos]; unfold cf; push_cast; ring
  | succ k h1 ih =>
    intro h9 fuel a hf l1 l2
    obtain ⟨fuel, rfl⟩ : ∃ j, fuel = j + 1 := ⟨fuel - 1, by omega⟩
    have hk : 2 ≤ 2 ^ k := by
      calc 2 = 2 ^ 1 := rfl
        _ ≤ 2 ^ k := Nat.pow_le_pow_right (by omega) h1
    have e := pow_succ 2 k
    set p0 := (List.range (a.length / 2)).map fun i => a.getD (2 * i) 0 with hp0
    set p1 := (List.range (a.length / 2)).map fun i => a.getD (2 * i + 1) 0 with hp1
    have lp0 : p0.length = a.length / 2 := by simp [hp0]
    have lp1 : p1.length = a.length / 2 := by simp [hp1]
    obtain ⟨b0, e0, m0, r0, v0⟩ := ih (by omega) fuel p0 (by omega) (by omega) (by omega)
    obtain ⟨b1, e1, m1, r1, v1⟩ := ih (by omega) fuel p1 (by omega) (by omega) (by omega)
    refine ⟨(List.range (2 ^ (k + 1))).map (mergeVal b0 b1), ?_, by simp, ?_, ?_⟩
    · unfold nttLoop
      rw [if_pos (by omega), fill_ok (g := fun i => a.getD (2 * i) 0) _ (fun i hi => idx_ok (by omega)),
        fill_ok (g := fun i => a.getD (2 * i + 1) 0) _ (fun i hi => idx_ok (by omega))]
      simp only [bind, Except.bind]
      rw [← hp0, ← hp1, e0, e1]
      exact mergeNTT_ok h1 h9 m0 m1
    · intro x hx
      rw [getD_map hx]; exact mergeVal_lt _ _ _
    · intro x hx
      rw [cf_map hx, cast_mergeVal h9 m0 hx, v0 _ (by omega), v1 _ (by omega),
        show 2 ^ (k + 1) = 2 * 2 ^ k by omega,
        evN_split (2 ^ k) a p0 p1 _ (fun i hi => cf_map (by omega)) (fun i hi => cf_map (by omega)),
        sq_pt (by omega) h9 hx]
      rfl

/-- The forward transform never fails otherwise than by a panic. -/
theorem nttLoop_panic : ∀ (fuel : Nat) (a : List Nat), a.length < fuel → (∀ k, 1 ≤ k → k ≤ 9 → ¬ (2 ^ k ≤ a.length ∧ 2 * a.length < 3 * 2 ^ k)) →
    nttLoop fuel a = .error (.revert "panic") := by
  intro fuel
  induction fuel with
  | zero => intro a h; omega
  | succ fuel ih =>
    intro a hf h
    unfold nttLoop
    by_cases hl : 2 < a.length
    · rw [if_pos hl, fill_ok (g := fun i => a.getD (2 * i) 0) _ (fun i hi => idx_ok (by omega)),
        fill_ok (g := fun i => a.getD (2 * i + 1) 0) _ (fun i hi => idx_ok (by omega))]
      simp only [bind, Except.bind]
      set p0 := (List.range (a.length / 2)).map fun i => a.getD (2 * i) 0 with hp0
      set p1 := (List.range (a.length / 2)).map fun i => a.getD (2 * i + 1) 0 with hp1
      have lp0 : p0.length = a.length / 2 := by simp [hp0]
      have lp1 : p1.length = a.length / 2 := by simp [hp1]
      by_cases hk : ∃ k, 1 ≤ k ∧ k ≤ 9 ∧ 2 ^ k ≤ p0.length ∧ 2 * p0.length < 3 * 2 ^ k
      · obtain ⟨k, h1, h9, g1, g2⟩ := hk
        have e := pow_succ 2 k
        have hk : 2 ≤ 2 ^ k := by
          calc 2 = 2 ^ 1 := rfl
            _ ≤ 2 ^ k := Nat.pow_le_pow_right (by omega) h1
        have k9 : k = 9 := by
          by_contra hne
          exact h (k + 1) (by omega) (by omega) ⟨by omega, by have := pow_succ 2 (k - 1); rw [show k - 1 + 1 = k by omega] at this; omega⟩
        subst k9
        obtain ⟨b0, e0, m0, -, -⟩ := nttLoop_ok 9 h1 h9 fuel p0 (by omega) g1 g2
        obtain ⟨b1, e1, m1, -, -⟩ := nttLoop_ok 9 h1 h9 fuel p1 (by omega) (by omega) (by omega)
        rw [e0, e1]
        show mergeNTT b0 b1 = _
        unfold mergeNTT
        have w0 : w (b0.length * 2) = [] := by rw [m0]; rfl
        apply fill_panic
        · intro i hi
          left
          unfold mergeEntry
          rw [w0, idx_panic (by simp)]; rfl
        · refine ⟨0, by omega, ?_⟩
          unfold mergeEntry
          rw [w0, idx_panic (by simp)]; rfl
      · rw [ih p0 (by omega) (fun k h1 h9 h' => hk ⟨k, h1, h9, h'⟩)]
    · rw [if_neg hl]
      have : a.length < 2 := by
        by_contra hne
        exact h 1 (by omega) (by omega) ⟨by omega, by omega⟩
      by_cases h0 : a.length = 0
      · rw [idx_panic (by omega)]; rfl
      · rw [idx_ok (by omega), idx_panic (by omega)]; rfl

/-! ## The inverse transform -/

theorem cast_i2 : (2 : ZMod 12289) * (i2 : Nat) = 1 := by decide +kernel

/-- First entry of a pair of the inverse butterfly. -/
def lowVal (p : List Nat) (i : Nat) : Nat := mulmod i2 (addmod (p.getD (2 * i) 0) (p.getD (2 * i + 1) 0) 12289) 12289

def invV (x : Nat) : Nat := (invRows.getD (x / 64) []).getD (x % 64) 0

/-- Second one. -/
def highVal (p : List Nat) (i : Nat) : Nat :=
  mulmod (mulmod i2 (addmod (p.getD (2 * i) 0) (12289 - p.getD (2 * i + 1) 0) 12289) 12289) (invV ((w p.length).getD (2 * i) 0)) 12289

theorem invAt_ok {x : Nat} (h : x < 12289) : invAt x = .ok (invV x) := if_pos h

theorem invV_spec {x : Nat} (h0 : 0 < x) (h : x < 12289) : (x : ZMod 12289) * (invV x : Nat) = 1 := by
  obtain ⟨y, hy, h1, _⟩ := invAt_spec x h0 h
  rw [invAt_ok h] at hy
  cases hy
  have : ((x * invV x : Nat) : ZMod 12289) = ((x * invV x % 12289 : Nat) : ZMod 12289) := (ZMod.natCast_mod _ _).symm
  rw [h1] at this
  push_cast at this
  exact this

theorem splitNTT_ok {k : Nat} (h9 : k + 1 ≤ 9) {p : List Nat} (l : p.length = 2 ^ (k + 1)) (hp : ∀ i < 2 ^ k, p.getD (2 * i + 1) 0 ≤ 12289) :
    splitNTT p = .ok ((List.range (2 ^ k)).map (lowVal p), (List.range (2 ^ k)).map (highVal p)) := by
  have e := pow_succ 2 k
  have t := tab (k := k + 1) (by omega) h9
  unfold splitNTT
  rw [show p.length / 2 = 2 ^ k by omega, fill_ok (g := lowVal p), fill_ok (g := highVal p)]
  · rfl
  · intro i hi
    rw [idx_ok (by omega), idx_ok (by omega)]
    have ti := t.2 i hi
    simp only [bind, Except.bind, pure, Except.pure, q]
    rw [csub_ok (hp i hi)]
    dsimp only
    rw [l, idx_ok (by rw [t.1]; omega)]
    dsimp only
    rw [invAt_ok ti.2.1]
    unfold highVal
    rw [l]
  · intro i hi
    rw [idx_ok (by omega), idx_ok (by omega)]
    rfl

theorem lowVal_lt (p : List Nat) (i : Nat) : lowVal p i < 12289 := mulmod_lt q_pos _ _
theorem highVal_lt (p : List Nat) (i : Nat) : highVal p i < 12289 := mulmod_lt q_pos _ _

theorem cast_lowVal (p : List Nat) (i : Nat) : 2 * ((lowVal p i : Nat) : ZMod 12289) = cf p (2 * i) + cf p (2 * i + 1) := by
  unfold lowVal cf
  rw [cast_mulmod q_pos, cast_addmod q_pos]
  linear_combination (((p.getD (2 * i) 0 : Nat) : ZMod 12289) + ((p.getD (2 * i + 1) 0 : Nat) : ZMod 12289)) * cast_i2

theorem cast_highVal {k : Nat} (h1 : 1 ≤ k) (h9 : k ≤ 9) {p : List Nat} (l : p.length = 2 ^ k) (i : Nat) (hi : i < 2 ^ (k - 1)) (hp : p.getD (2 * i + 1) 0 ≤ 12289) :
    2 * (pt k (2 * i) * ((highVal p i : Nat) : ZMod 12289)) = cf p (2 * i) - cf p (2 * i + 1) := by
  have t := (tab h1 h9).2 i hi
  unfold highVal
  rw [cast_mulmod q_pos, cast_mulmod q_pos, cast_addmod q_pos, cast_csub hp, l]
  have h := invV_spec t.1 t.2.1
  unfold pt cf
  linear_combination (((p.getD (2 * i) 0 : Nat) : ZMod 12289) - ((p.getD (2 * i + 1) 0 : Nat) : ZMod 12289)) * cast_i2 +
    2 * (i2 : ZMod 12289) * (((p.getD (2 * i) 0 : Nat) : ZMod 12289) - ((p.getD (2 * i + 1) 0 : Nat) : ZMod 12289)) * h

theorem two_cancel {a b : ZMod 12289} (h : 2 * a = 2 * b) : a = b := by
  linear_combination (i2 : ZMod 12289) * h - (a - b) * cast_i2

theorem inttLoop_ok : ∀ k, 1 ≤ k → k ≤ 9 → ∀ (fuel : Nat) (c : List Nat), k ≤ fuel → c.length = 2 ^ k → (∀ i < 2 ^ (k - 1), c.getD (2 * i + 1) 0 ≤ 12289) →
    ∃ d, inttLoop fuel c = .ok d ∧ d.length = 2 ^ k ∧ (∀ x < 2 ^ k, d.getD x 0 < 12289) ∧ ∀ x < 2 ^ k, evN (2 ^ k) d (pt k x) = cf c x := by
  intro k h1
  induction k, h1 using Nat.le_induction with
  | base =>
    intro h9 fuel c hf l hc
    obtain ⟨fuel, rfl⟩ : ∃ j, fuel = j + 1 := ⟨fuel - 1, by omega⟩
    have l2 : c.length = 2 := by omega
    refine ⟨[lowVal c 0, mulmod (mulmod i2 (invV 1479) 12289) (addmod (c.getD 0 0) (12289 - c.getD 1 0) 12289) 12289], ?_, rfl, ?_, ?_⟩
    · unfold inttLoop
      rw [if_neg (by omega), idx_ok (by omega), idx_ok (by omega)]
      simp only [bind, Except.bind, pure, Except.pure, q]
      rw [csub_ok (hc 0 (by norm_num)), invAt_ok (by omega)]
      rfl
    · intro x hx
      rcases (show x = 0 ∨ x = 1 by omega) with rfl | rfl
      · exact lowVal_lt _ _
      · exact mulmod_lt q_pos _ _
    · intro x hx
      have hl := cast_lowVal c 0
      have hh : 2 * (1479 * ((mulmod (mulmod i2 (invV 1479) 12289) (addmod (c.getD 0 0) (12289 - c.getD 1 0) 12289) 12289 : Nat) : ZMod 12289)) = cf c 0 - cf c 1 := by
        rw [cast_mulmod q_pos, cast_mulmod q_pos, cast_addmod q_pos, cast_csub (hc 0 (by norm_num))]
        have h := invV_spec (x := 1479) (by omega) (by omega)
        unfold cf
        linear_combination (((c.getD 0 0 : Nat) : ZMod 12289) - ((c.getD 1 0 : Nat) : ZMod 12289)) * cast_i2 +
          2 * (i2 : ZMod 12289) * (((c.getD 0 0 : Nat) : ZMod 12289) - ((c.getD 1 0 : Nat) : ZMod 12289)) * h
      unfold evN
      rw [show 2 ^ 1 = 1 + 1 from rfl, sum_range_succ, sum_range_one]
      generalize mulmod (mulmod i2 (invV 1479) 12289) (addmod (c.getD 0 0) (12289 - c.getD 1 0) 12289) 12289 = z at hh
      have g0 : cf [lowVal c 0, z] 0 = (lowVal c 0 : Nat) := rfl
      have g1 : cf [lowVal c 0, z] 1 = (z : Nat) := rfl
      rw [g0, g1]
      rcases (show x = 0 ∨ x = 1 by omega) with rfl | rfl
      · rw [pt_one.1]; apply two_cancel; linear_combination hl + hh
      · rw [pt_one.2]; apply two_cancel; linear_combination hl - hh
  | succ k h1 ih =>
    intro h9 fuel c hf l hc
    obtain ⟨fuel, rfl⟩ : ∃ j, fuel = j + 1 := ⟨fuel - 1, by omega⟩
    have hk : 2 ≤ 2 ^ k := by
      calc 2 = 2 ^ 1 := rfl
        _ ≤ 2 ^ k := Nat.pow_le_pow_right (by omega) h1
    have e := pow_succ 2 k
    simp only [Nat.add_sub_cancel] at hc
    have hodd : ∀ i < 2 ^ (k - 1), 2 * i + 1 < 2 ^ k := by
      intro i hi
      have := pow_succ 2 (k - 1)
      rw [show k - 1 + 1 = k by omega] at this
      omega
    obtain ⟨d0, e0, m0, r0, v0⟩ := ih (by omega) fuel ((List.range (2 ^ k)).map (lowVal c)) (by omega) (by simp)
      (fun i hi => by rw [getD_map (hodd i hi)]; exact (lowVal_lt _ _).le)
    obtain ⟨d1, e1, m1, r1, v1⟩ := ih (by omega) fuel ((List.range (2 ^ k)).map (highVal c)) (by omega) (by simp)
      (fun i hi => by rw [getD_map (hodd i hi)]; exact (highVal_lt _ _).le)
    set g : Nat → Nat := fun x => if x / 2 < d0.length then (if x % 2 = 0 then d0.getD (x / 2) 0 else d1.getD (x / 2) 0) else 0 with hg
    have gv : ∀ x < 2 ^ (k + 1), g x = if x % 2 = 0 then d0.getD (x / 2) 0 else d1.getD (x / 2) 0 := by
      intro x hx
      rw [hg]; dsimp only
      rw [if_pos (by omega)]
    refine ⟨(List.range (2 ^ (k + 1))).map g, ?_, by simp, ?_, ?_⟩
    · unfold inttLoop
      rw [if_pos (by omega), splitNTT_ok h9 l hc]
      simp only [bind, Except.bind]
      rw [e0, e1, l]
      rfl
    · intro x hx
      rw [getD_map hx, gv x hx]
      split
      · exact r0 _ (by omega)
      · exact r1 _ (by omega)
    · intro x hx
      rw [show 2 ^ (k + 1) = 2 * 2 ^ k by omega, evN_split (2 ^ k) _ d0 d1, sq_pt (by omega) h9 hx]
      · simp only [Nat.add_sub_cancel]
        rw [v0 _ (by omega), v1 _ (by omega), cf_map (by omega), cf_map (by omega)]
        have hl := cast_lowVal c (x / 2)
        have hh := cast_highVal (k := k + 1) (by omega) h9 l (x / 2) (by simp only [Nat.add_sub_cancel]; omega) (hc _ (by omega))
        have t := (tab (k := k + 1) (by omega) h9).2 (x / 2) (by simp only [Nat.add_sub_cancel]; omega)
        apply two_cancel
        rcases Nat.mod_two_eq_zero_or_one x with h | h
        · rw [show 2 * (x / 2) + 1 = x + 1 by omega, show 2 * (x / 2) = x by omega] at *
          linear_combination hl + hh
        · have tp := t.2.2.1
          rw [show 2 * (x / 2) + 1 = x by omega] at *
          rw [tp]
          linear_combination hl - hh
      · intro i hi
        rw [cf_map (by omega), gv _ (by omega), if_pos (by omega), show 2 * i / 2 = i by omega]; rfl
      · intro i hi
        rw [cf_map (by omega), gv _ (by omega), if_neg (by omega), show (2 * i + 1) / 2 = i by omega]; rfl

/-- Outside its domain the inverse transform panics. -/
theorem inttLoop_panic (fuel : Nat) (c : List Nat) (h : ¬ ∃ k, 1 ≤ k ∧ k ≤ 9 ∧ c.length = 2 ^ k ∧ ∀ i < 2 ^ (k - 1), c.getD (2 * i + 1) 0 ≤ 12289) :
    inttLoop (fuel + 1) c = .error (.revert "panic") := by
  unfold inttLoop
  by_cases hl : 2 < c.length
  · rw [if_pos hl]
    have : splitNTT c = .error (.revert "panic") := by
      unfold splitNTT
      rw [fill_ok (g := lowVal c) _ (fun i hi => by rw [idx_ok (by omega), idx_ok (by omega)]; rfl)]
      simp only [bind, Except.bind]
      rw [fill_panic (e := .revert "panic")]
      · intro i hi
        rw [idx_ok (by omega), idx_ok (by omega)]
        dsimp only
        by_cases h1 : c.getD (2 * i + 1) 0 ≤ q
        · rw [csub_ok h1]
          dsimp only
          by_cases h2 : 2 * i < (w c.length).length
          · rw [idx_ok h2]
            dsimp only
            by_cases h3 : (w c.length).getD (2 * i) 0 < 12289
            · rw [invAt_ok h3]; right; exact ⟨_, rfl⟩
            · left; unfold invAt; rw [if_neg h3]
          · rw [idx_panic (by omega)]; left; rfl
        · rw [csub_panic (by omega)]; left; rfl
      · by_cases hk : ∃ k, 1 ≤ k ∧ k ≤ 9 ∧ c.length = 2 ^ k
        · obtain ⟨k, h1, h9, lk⟩ := hk
          have : ∃ i < 2 ^ (k - 1), 12289 < c.getD (2 * i + 1) 0 := by
            by_contra hn
            refine h ⟨k, h1, h9, lk, fun i hi => ?_⟩
            by_contra h'
            exact hn ⟨i, hi, by omega⟩
          obtain ⟨i, hi, hb⟩ := this
          have e : 2 ^ k = 2 * 2 ^ (k - 1) := by rw [← pow_succ']; congr 1; omega
          refine ⟨i, by omega, ?_⟩
          rw [idx_ok (by omega), idx_ok (by omega)]
          dsimp only
          rw [csub_panic (by unfold q; omega)]
        · refine ⟨0, by omega, ?_⟩
          rw [idx_ok (by omega), idx_ok (by omega), w_other _ (fun k h1 h9 h' => hk ⟨k, h1, h9, h'⟩)]
          dsimp only
          by_cases h1 : c.getD (2 * 0 + 1) 0 ≤ q
          · rw [csub_ok h1]; rfl
          · rw [csub_panic (by omega)]
    rw [this]; rfl
  · rw [if_neg hl]
    by_cases l2 : c.length = 2
    · have : 12289 < c.getD 1 0 := by
        by_contra h'
        exact h ⟨1, by omega, by omega, l2, fun i hi => by rw [show i = 0 by omega]; exact Nat.le_of_not_lt h'⟩
      rw [idx_ok (by omega), idx_ok (by omega)]
      simp only [bind, Except.bind]
      rw [csub_panic (by unfold q; omega)]
    · by_cases h0 : c.length = 0
      · rw [idx_panic (by omega)]; rfl
      · rw [idx_ok (by omega), idx_panic (by omega)]; rfl

end Verif.Tetration
