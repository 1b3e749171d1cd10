import Verif.CRef.Fft
import Mathlib.Data.List.Basic
import Mathlib.Tactic.Ring

/-! # The loops of the transforms, slot by slot -/

namespace Verif.CRef.Fft

open Verif.CRef.Fpr

theorem put_length (f : List W) (hn u : ℕ) (z : C) : (put f hn u z).length = f.length := by unfold put; simp

theorem getElem!_set_eq (f : List W) (i : ℕ) (z : W) (h : i < f.length) : (f.set i z)[i]! = z := by
  rw [List.getElem!_eq_getElem?_getD, List.getElem?_set_self h]; rfl

theorem getElem!_set_ne (f : List W) (i j : ℕ) (z : W) (h : i ≠ j) : (f.set i z)[j]! = f[j]! := by
  rw [List.getElem!_eq_getElem?_getD, List.getElem?_set_ne h, ← List.getElem!_eq_getElem?_getD]

theorem slot_put (f : List W) (hn u v : ℕ) (z : C) (hl : f.length = 2 * hn) (hu : u < hn) (hv : v < hn) : slot (put f hn u z) hn v = if u = v then z else slot f hn v := by
  unfold slot put
  by_cases h : u = v
  · subst h
    rw [if_pos rfl, getElem!_set_ne _ _ _ _ (by omega), getElem!_set_eq _ _ _ (by omega), getElem!_set_eq _ _ _ (by rw [List.length_set]; omega)]
  · rw [if_neg h, getElem!_set_ne _ _ _ _ (by omega), getElem!_set_ne _ _ _ _ h, getElem!_set_ne _ _ _ _ (by omega), getElem!_set_ne _ _ _ _ (by omega)]

/-- A fold of steps with disjoint footprints acts on each footprint as its own step does. -/
theorem fold_disjoint {α : Type*} (hn : ℕ) (step : List W → α → List W) (S : α → ℕ → Prop) (hlen : ∀ f x, (step f x).length = f.length)
    (l : List α) (hpw : l.Pairwise fun x y => ∀ p, S x p → ¬ S y p)
    (h1 : ∀ x ∈ l, ∀ f : List W, f.length = 2 * hn → ∀ p < hn, ¬ S x p → slot (step f x) hn p = slot f hn p)
    (h2 : ∀ x ∈ l, ∀ f g : List W, f.length = 2 * hn → g.length = 2 * hn → (∀ p < hn, S x p → slot f hn p = slot g hn p) → ∀ p < hn, S x p → slot (step f x) hn p = slot (step g x) hn p) :
    ∀ f : List W, f.length = 2 * hn → (l.foldl step f).length = f.length ∧ (∀ x ∈ l, ∀ p < hn, S x p → slot (l.foldl step f) hn p = slot (step f x) hn p) ∧
      (∀ p < hn, (∀ x ∈ l, ¬ S x p) → slot (l.foldl step f) hn p = slot f hn p) := by
  induction l with
  | nil => intro f _; exact ⟨rfl, fun x hx => absurd hx (List.not_mem_nil), fun p _ _ => rfl⟩
  | cons a l ih =>
    intro f hf
    rw [List.pairwise_cons] at hpw
    obtain ⟨i1, i2, i3⟩ := ih hpw.2 (fun x hx => h1 x (List.mem_cons_of_mem _ hx)) (fun x hx => h2 x (List.mem_cons_of_mem _ hx)) (step f a) (by rw [hlen, hf])
    rw [List.foldl_cons]
    refine ⟨by rw [i1, hlen], ?_, ?_⟩
    · intro x hx p hp hS
      rcases List.mem_cons.1 hx with rfl | hx'
      · exact i3 p hp (fun y hy => hpw.1 y hy p hS)
      · rw [i2 x hx' p hp hS]
        refine h2 x hx _ _ (by rw [hlen, hf]) hf ?_ p hp hS
        intro p' hp' hS'
        exact h1 a (List.mem_cons_self) f hf p' hp' (fun h => hpw.1 x hx' p' h hS')
    · intro p hp hno
      rw [i3 p hp (fun x hx => hno x (List.mem_cons_of_mem _ hx))]
      exact h1 a (List.mem_cons_self) f hf p hp (hno a (List.mem_cons_self))

/-- A pair of loops of butterflies: block `i` of size `2 h`, butterflies on `(2 h i + j, 2 h i + j + h)`. -/
theorem two_loops (hn h N : ℕ) (hN : N * (2 * h) ≤ hn) (P D : ℕ → C → C → C) (bf : ℕ → List W → ℕ → List W)
    (hbf : ∀ i f j, bf i f j = put (put f hn j (P i (slot f hn j) (slot f hn (j + h)))) hn (j + h) (D i (slot f hn j) (slot f hn (j + h)))) (f : List W) (hf : f.length = 2 * hn) :
    ((List.range N).foldl (fun f i => (List.range h).foldl (fun f j => bf i f (i * (2 * h) + j)) f) f).length = 2 * hn ∧
    ∀ i < N, ∀ j < h, slot ((List.range N).foldl (fun f i => (List.range h).foldl (fun f j => bf i f (i * (2 * h) + j)) f) f) hn (i * (2 * h) + j) = P i (slot f hn (i * (2 * h) + j)) (slot f hn (i * (2 * h) + j + h)) ∧
      slot ((List.range N).foldl (fun f i => (List.range h).foldl (fun f j => bf i f (i * (2 * h) + j)) f) f) hn (i * (2 * h) + j + h) = D i (slot f hn (i * (2 * h) + j)) (slot f hn (i * (2 * h) + j + h)) := by
  have bl : ∀ i f j, (bf i f j).length = f.length := by intro i f j; rw [hbf, put_length, put_length]
  have bnd : ∀ i < N, i * (2 * h) + 2 * h ≤ hn := by
    intro i hi
    have : (i + 1) * (2 * h) ≤ N * (2 * h) := Nat.mul_le_mul_right _ hi
    rw [add_mul, one_mul] at this; omega
  have bs : ∀ i < N, ∀ j < h, ∀ f : List W, f.length = 2 * hn → ∀ p < hn, slot (bf i f (i * (2 * h) + j)) hn p =
      if p = i * (2 * h) + j then P i (slot f hn (i * (2 * h) + j)) (slot f hn (i * (2 * h) + j + h)) else if p = i * (2 * h) + j + h then D i (slot f hn (i * (2 * h) + j)) (slot f hn (i * (2 * h) + j + h)) else slot f hn p := by
    intro i hi j hj f hf p hp
    have := bnd i hi
    rw [hbf, slot_put _ _ _ _ _ (by rw [put_length, hf]) (by omega) hp, slot_put _ _ _ _ _ hf (by omega) hp]
    by_cases c1 : p = i * (2 * h) + j
    · rw [if_neg (by omega), if_pos c1.symm, if_pos c1]
    · rw [if_neg c1]
      by_cases c2 : p = i * (2 * h) + j + h
      · rw [if_pos c2.symm, if_pos c2]
      · rw [if_neg (by omega), if_neg (by omega), if_neg c2]
  have inner : ∀ i < N, ∀ f : List W, f.length = 2 * hn → ((List.range h).foldl (fun f j => bf i f (i * (2 * h) + j)) f).length = f.length ∧
      (∀ j ∈ List.range h, ∀ p < hn, (p = i * (2 * h) + j ∨ p = i * (2 * h) + j + h) → slot ((List.range h).foldl (fun f j => bf i f (i * (2 * h) + j)) f) hn p = slot (bf i f (i * (2 * h) + j)) hn p) ∧
      (∀ p < hn, (∀ j ∈ List.range h, ¬ (p = i * (2 * h) + j ∨ p = i * (2 * h) + j + h)) → slot ((List.range h).foldl (fun f j => bf i f (i * (2 * h) + j)) f) hn p = slot f hn p) := by
    intro i hi
    refine fold_disjoint hn _ (fun j p => p = i * (2 * h) + j ∨ p = i * (2 * h) + j + h) (fun f x => bl i f _) (List.range h) ?_ ?_ ?_
    · rw [List.pairwise_iff_getElem]
      intro a b ha hb hab p h1 h2
      rw [List.length_range] at ha hb
      rw [List.getElem_range] at h1 h2
      omega
    · intro x hx f hf p hp hno
      rw [bs i hi x (List.mem_range.1 hx) f hf p hp, if_neg (fun e => hno (.inl e)), if_neg (fun e => hno (.inr e))]
    · intro x hx f g hf hg hfg p hp hS
      have hx' := List.mem_range.1 hx
      have := bnd i hi
      rw [bs i hi x hx' f hf p hp, bs i hi x hx' g hg p hp, hfg _ (by omega) (.inl rfl), hfg (i * (2 * h) + x + h) (by omega) (.inr rfl)]
      rcases hS with e | e
      · rw [if_pos e, if_pos e]
      · rw [if_neg (by omega), if_pos e, if_neg (by omega), if_pos e]
  have outer := fold_disjoint hn (fun f i => (List.range h).foldl (fun f j => bf i f (i * (2 * h) + j)) f) (fun i p => i * (2 * h) ≤ p ∧ p < i * (2 * h) + 2 * h)
    (fun f i => by
      have : ∀ (l : List ℕ) (f : List W), (l.foldl (fun f j => bf i f (i * (2 * h) + j)) f).length = f.length := by
        intro l; induction l with
        | nil => intro f; rfl
        | cons a l ih => intro f; rw [List.foldl_cons, ih, bl]
      exact this _ _) (List.range N) ?_ ?_ ?_ f hf
  · refine ⟨by rw [outer.1, hf], fun i hi j hj => ?_⟩
    have := bnd i hi
    have hj' := List.mem_range.2 hj
    constructor
    · rw [outer.2.1 i (List.mem_range.2 hi) _ (by omega) ⟨by omega, by omega⟩, (inner i hi f hf).2.1 j hj' _ (by omega) (.inl rfl), bs i hi j hj f hf _ (by omega), if_pos rfl]
    · rw [outer.2.1 i (List.mem_range.2 hi) _ (by omega) ⟨by omega, by omega⟩, (inner i hi f hf).2.1 j hj' _ (by omega) (.inr rfl), bs i hi j hj f hf _ (by omega), if_neg (by omega), if_pos rfl]
  · rw [List.pairwise_iff_getElem]
    intro a b ha hb hab p h1 h2
    rw [List.getElem_range] at h1 h2
    have : (a + 1) * (2 * h) ≤ b * (2 * h) := Nat.mul_le_mul_right _ hab
    rw [add_mul, one_mul] at this
    omega
  · intro i hi f hf p hp hno
    exact (inner i (List.mem_range.1 hi) f hf).2.2 p hp (fun j hj hc => hno (by have := List.mem_range.1 hj; omega))
  · intro i hi f g hf hg hfg p hp hS
    have hi' := List.mem_range.1 hi
    have hb := bnd i hi'
    obtain ⟨j, hj, hpj⟩ : ∃ j < h, p = i * (2 * h) + j ∨ p = i * (2 * h) + j + h := by
      rcases lt_or_ge (p - i * (2 * h)) h with c | c
      · exact ⟨p - i * (2 * h), c, .inl (by omega)⟩
      · exact ⟨p - i * (2 * h) - h, by omega, .inr (by omega)⟩
    rw [(inner i hi' f hf).2.1 j (List.mem_range.2 hj) p hp hpj, (inner i hi' g hg).2.1 j (List.mem_range.2 hj) p hp hpj, bs i hi' j hj f hf p hp, bs i hi' j hj g hg p hp,
      hfg _ (by omega) ⟨by omega, by omega⟩, hfg (i * (2 * h) + j + h) (by omega) ⟨by omega, by omega⟩]
    rcases hpj with e | e
    · rw [if_pos e, if_pos e]
    · rw [if_neg (by omega), if_pos e, if_neg (by omega), if_pos e]

end Verif.CRef.Fft
