import Verif.CRef.HashCtProps
import Mathlib.Data.Fintype.BigOperators
import Mathlib.Data.Nat.Choose.Sum
import Mathlib.Data.Fin.Tuple.Basic

/-! # C89: how often the constant-time hash to point runs out of values -/

set_option linter.constructorNameAsVariable false

namespace Verif.CRef

open Verif.Hash

/-- The number of accepted words of a vector: those below 61445 = 5q. -/
def acceptedCount {m : ℕ} (f : Fin m → Fin 65536) : ℕ := (Finset.univ.filter fun i => (f i).val < 61445).card

/-- The vectors of `m` words with fewer than `n` accepted ones. -/
def shortVectors (m n : ℕ) : Finset (Fin m → Fin 65536) := Finset.univ.filter fun f => acceptedCount f < n

theorem acceptedCount_cons {m : ℕ} (x : Fin 65536) (f : Fin m → Fin 65536) : acceptedCount (Fin.cons x f : Fin (m + 1) → Fin 65536) = (if x.val < 61445 then 1 else 0) + acceptedCount f := by
  unfold acceptedCount
  rw [Fin.card_filter_univ_succ]
  simp only [Fin.cons_zero, Fin.cons_succ]
  split <;> omega

theorem acc_card : (Finset.univ.filter fun x : Fin 65536 => x.val < 61445).card = 61445 := by
  rw [Fin.card_filter_val_lt]; rfl

theorem rej_card : (Finset.univ.filter fun x : Fin 65536 => ¬ x.val < 61445).card = 4091 := by
  have h := Finset.card_filter_add_card_filter_not (s := (Finset.univ : Finset (Fin 65536))) (fun x : Fin 65536 => x.val < 61445)
  rw [acc_card, Finset.card_univ, Fintype.card_fin] at h
  omega

theorem short_succ (m n : ℕ) : (shortVectors (m + 1) n).card = 61445 * (shortVectors m (n - 1)).card * (if n = 0 then 0 else 1) + 4091 * (shortVectors m n).card := by
  have e : (shortVectors (m + 1) n).card = ∑ x : Fin 65536, (Finset.univ.filter fun f : Fin m → Fin 65536 => (if x.val < 61445 then 1 else 0) + acceptedCount f < n).card := by
    rw [← Finset.card_sigma]
    refine Finset.card_bij' (fun f _ => ⟨f 0, Fin.tail f⟩) (fun p _ => Fin.cons p.1 p.2) ?_ ?_ ?_ ?_
    · intro f hf
      rw [Finset.mem_sigma, Finset.mem_filter, ← acceptedCount_cons, Fin.cons_self_tail]
      exact ⟨Finset.mem_univ _, Finset.mem_univ _, (Finset.mem_filter.1 hf).2⟩
    · intro p hp
      rw [Finset.mem_sigma, Finset.mem_filter] at hp
      unfold shortVectors
      rw [Finset.mem_filter, acceptedCount_cons]
      exact ⟨Finset.mem_univ _, hp.2.2⟩
    · intro f _
      exact Fin.cons_self_tail f
    · intro p _
      rfl
  rw [e, ← Finset.sum_filter_add_sum_filter_not Finset.univ (fun x : Fin 65536 => x.val < 61445)]
  have s1 : ∑ x ∈ Finset.univ.filter (fun x : Fin 65536 => x.val < 61445), (Finset.univ.filter fun f : Fin m → Fin 65536 => (if x.val < 61445 then 1 else 0) + acceptedCount f < n).card =
      61445 * (shortVectors m (n - 1)).card * (if n = 0 then 0 else 1) := by
    rw [Finset.sum_congr rfl (g := fun _ => (shortVectors m (n - 1)).card * (if n = 0 then 0 else 1)), Finset.sum_const, acc_card, smul_eq_mul, mul_assoc]
    intro x hx
    rw [Finset.mem_filter] at hx
    simp only [hx.2, if_true]
    unfold shortVectors
    split
    · next h0 => rw [h0, mul_zero, Finset.card_eq_zero, Finset.filter_eq_empty_iff]; intro f _; omega
    · next h0 =>
      rw [mul_one]
      congr 1
      apply Finset.filter_congr
      intro f _
      omega
  have s2 : ∑ x ∈ Finset.univ.filter (fun x : Fin 65536 => ¬ x.val < 61445), (Finset.univ.filter fun f : Fin m → Fin 65536 => (if x.val < 61445 then 1 else 0) + acceptedCount f < n).card =
      4091 * (shortVectors m n).card := by
    rw [Finset.sum_congr rfl (g := fun _ => (shortVectors m n).card), Finset.sum_const, rej_card, smul_eq_mul]
    intro x hx
    rw [Finset.mem_filter] at hx
    simp only [hx.2, if_false, Nat.zero_add]
    rfl
  rw [s1, s2]

/-- The exact number of failing vectors: a sum of binomial terms. -/
theorem short_card (m : ℕ) : ∀ n, (shortVectors m n).card = ∑ i ∈ Finset.range n, m.choose i * 61445 ^ i * 4091 ^ (m - i) := by
  induction m with
  | zero =>
    intro n
    cases n with
    | zero => simp [shortVectors]
    | succ n =>
      rw [Finset.sum_range_succ']
      simp only [Nat.choose_zero_succ, zero_mul, Finset.sum_const_zero, zero_add, Nat.choose_zero_right, pow_zero, Nat.sub_zero, mul_one]
      unfold shortVectors acceptedCount
      simp
  | succ m ih =>
    intro n
    rw [short_succ]
    cases n with
    | zero => simp [shortVectors]
    | succ n =>
      rw [if_neg (by omega), mul_one, Nat.add_sub_cancel, ih, ih, Finset.sum_range_succ' _ n, Finset.sum_range_succ' _ n, mul_add, Finset.mul_sum, Finset.mul_sum, ← add_assoc, ← Finset.sum_add_distrib]
      congr 1
      · apply Finset.sum_congr rfl
        intro i _
        rw [Nat.choose_succ_succ, Nat.add_sub_add_right]
        by_cases h : i + 1 ≤ m
        · rw [show m - i = m - (i + 1) + 1 by omega]; ring
        · rw [Nat.choose_eq_zero_of_lt (show m < i + 1 by omega)]; ring
      · simp only [Nat.choose_zero_right, pow_zero, mul_one, one_mul, Nat.sub_zero]
        rw [pow_succ]; ring

/-- Evaluation of the sum: `i`, the term number `i`, the sum so far. -/
def binLoop (m : ℕ) : ℕ → ℕ → ℕ → ℕ → ℕ
  | 0, _, _, s => s
  | k + 1, i, t, s => binLoop m k (i + 1) (t * ((m - i) * 61445) / ((i + 1) * 4091)) (s + t)

theorem binTerm (m i : ℕ) (hi : i < m) : m.choose i * 61445 ^ i * 4091 ^ (m - i) * ((m - i) * 61445) / ((i + 1) * 4091) = m.choose (i + 1) * 61445 ^ (i + 1) * 4091 ^ (m - (i + 1)) := by
  apply Nat.div_eq_of_eq_mul_left (by positivity)
  have h := Nat.choose_succ_right_eq m i
  rw [show m - i = m - (i + 1) + 1 by omega] at *
  calc m.choose i * 61445 ^ i * 4091 ^ (m - (i + 1) + 1) * ((m - (i + 1) + 1) * 61445)
      = (m.choose i * (m - (i + 1) + 1)) * 61445 ^ (i + 1) * 4091 ^ (m - (i + 1)) * 4091 := by ring
    _ = _ := by rw [← h]; ring

theorem binLoop_eq (m : ℕ) : ∀ k i s, i + k ≤ m → binLoop m k i (m.choose i * 61445 ^ i * 4091 ^ (m - i)) s = s + ∑ j ∈ Finset.range k, m.choose (i + j) * 61445 ^ (i + j) * 4091 ^ (m - (i + j)) := by
  intro k
  induction k with
  | zero => intro i s _; simp [binLoop]
  | succ k ih =>
    intro i s h
    unfold binLoop
    rw [binTerm m i (by omega), ih (i + 1) _ (by omega), Finset.sum_range_succ', add_assoc, add_comm _ (m.choose (i + 0) * _ * _)]
    simp only [add_zero]
    congr 2
    apply Finset.sum_congr rfl
    intro j _
    rw [show i + 1 + j = i + (j + 1) by ring]

theorem short_eval (m n : ℕ) (h : n ≤ m) : (shortVectors m n).card = binLoop m n 0 (4091 ^ m) 0 := by
  have := binLoop_eq m n 0 0 (by omega)
  simp only [Nat.choose_zero_right, pow_zero, Nat.sub_zero, one_mul, zero_add] at this
  rw [this, short_card]

set_option maxRecDepth 100000 in
theorem fail_numbers : ∀ k ∈ [1, 2, 3, 4, 5, 6, 7, 8, 9, 10],
    binLoop (2 ^ k + overtab.getD k 0) (2 ^ k) 0 (4091 ^ (2 ^ k + overtab.getD k 0)) 0 * 2 ^ 256 < 65536 ^ (2 ^ k + overtab.getD k 0) ∧
    65536 ^ (2 ^ k + overtab.getD k 0 - 1) < binLoop (2 ^ k + overtab.getD k 0 - 1) (2 ^ k) 0 (4091 ^ (2 ^ k + overtab.getD k 0 - 1)) 0 * 2 ^ 256 := by decide +kernel

/-- **C89** (failure): of all vectors of as many 16-bit words as the constant-time function reads, fewer than one in 2^256 has less than `n` accepted words (and so gives a wrong point); with one word
less it would be more than one in 2^256, so the oversampling of the table is the least that meets this bound. -/
theorem C89_failure (logn : Nat) (h1 : 1 ≤ logn) (h : logn ≤ 10) :
    (shortVectors (ctWords logn) (2 ^ logn)).card * 2 ^ 256 < Fintype.card (Fin (ctWords logn) → Fin 65536) ∧
    Fintype.card (Fin (ctWords logn - 1) → Fin 65536) < (shortVectors (ctWords logn - 1) (2 ^ logn)).card * 2 ^ 256 := by
  have key := fail_numbers logn (by simp only [List.mem_cons, List.not_mem_nil, or_false]; omega)
  have ho : 1 ≤ overtab.getD logn 0 := by
    have : ∀ k ∈ [1, 2, 3, 4, 5, 6, 7, 8, 9, 10], 1 ≤ overtab.getD k 0 := by decide
    exact this logn (by simp only [List.mem_cons, List.not_mem_nil, or_false]; omega)
  rw [Fintype.card_fun, Fintype.card_fun, Fintype.card_fin, Fintype.card_fin, Fintype.card_fin]
  unfold ctWords
  rw [short_eval _ _ (by omega), short_eval _ _ (by omega)]
  exact key

/-- The words of a stream are a vector in the sense of `C89_failure`: the number of values accepted by the function is its `acceptedCount`. -/
theorem C89_count (S : Nat → Nat) (hS : ∀ i, word16 S i < 65536) (m : ℕ) : (accepted S m).length = acceptedCount fun i : Fin m => (⟨word16 S i, hS i⟩ : Fin 65536) := by
  induction m with
  | zero => rfl
  | succ m ih =>
    unfold accepted acceptedCount at *
    rw [List.range_succ, List.map_append, List.filter_append, List.map_append, List.length_append, ih]
    dsimp only
    rw [Fin.univ_castSuccEmb, Finset.filter_cons]
    simp only [Fin.val_last]
    split
    · next h => simp [h, Finset.filter_map, Function.comp_def]; rfl
    · next h => simp [h, Finset.filter_map, Function.comp_def]; rfl

end Verif.CRef
