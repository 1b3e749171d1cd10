import Verif.CRef.TreeSlot
import Verif.CRef.FftProps
import Verif.CRef.SignDyn

/-! # A node of the sampling tree: bounds for the mean and the mean inverse of the diagonal element are passed on to the leaves -/

namespace Verif.CRef.Fft

open Verif.CRef.Fpr Verif.CRef.Orth Verif.CRef.SignDyn

/-- The diagonal element of a node with `2^s` slots: real parts in `[m, M]`, imaginary parts at most `E`, mean at most `A`, mean inverse at most `H`. -/
structure Node (s : ℕ) (D : List W) (m M E A H : ℝ) : Prop where
  weak : ∀ p < 2 ^ s, Weak (slot D (2 ^ s) p)
  lo : ∀ p < 2 ^ s, m ≤ val (slot D (2 ^ s) p).1
  hi : ∀ p < 2 ^ s, val (slot D (2 ^ s) p).1 ≤ M
  im : ∀ p < 2 ^ s, |val (slot D (2 ^ s) p).2| ≤ E
  mean : ∑ p ∈ Finset.range (2 ^ s), val (slot D (2 ^ s) p).1 ≤ 2 ^ s * A
  inv : ∑ p ∈ Finset.range (2 ^ s), 1 / val (slot D (2 ^ s) p).1 ≤ 2 ^ s * H

theorem sum_pairs (f : ℕ → ℝ) : ∀ n, ∑ p ∈ Finset.range (2 * n), f p = ∑ p ∈ Finset.range n, (f (2 * p) + f (2 * p + 1))
  | 0 => by simp
  | n + 1 => by rw [show 2 * (n + 1) = 2 * n + 1 + 1 by ring, Finset.sum_range_succ, Finset.sum_range_succ, sum_pairs f n, Finset.sum_range_succ, add_assoc]

/-- A new element close to a mean of pairs. -/
theorem node_of (s : ℕ) (D D' : List W) (m M E A H E' c : ℝ) (x : ℕ → ℝ) (m0 : 0 < m) (hc : 1 ≤ c) (hN : Node (s + 1) D m M E A H) (hw : ∀ p < 2 ^ s, Weak (slot D' (2 ^ s) p))
    (him : ∀ p < 2 ^ s, |val (slot D' (2 ^ s) p).2| ≤ E')
    (hx : ∀ p < 2 ^ s, x p = (val (slot D (2 ^ (s + 1)) (2 * p)).1 + val (slot D (2 ^ (s + 1)) (2 * p + 1)).1) / 2 ∨
      x p = val (slot D (2 ^ (s + 1)) (2 * p)).1 * val (slot D (2 ^ (s + 1)) (2 * p + 1)).1 / ((val (slot D (2 ^ (s + 1)) (2 * p)).1 + val (slot D (2 ^ (s + 1)) (2 * p + 1)).1) / 2))
    (h1 : ∀ p < 2 ^ s, val (slot D' (2 ^ s) p).1 ≤ c * x p) (h2 : ∀ p < 2 ^ s, x p ≤ c * val (slot D' (2 ^ s) p).1) : Node s D' (m / c) (c * M) E' (c * A) (c * H) := by
  obtain ⟨r, hr⟩ : ∃ r : ℕ → ℝ, (fun p => val (slot D (2 ^ (s + 1)) p).1) = r := ⟨_, rfl⟩
  have hrp : ∀ p, val (slot D (2 ^ (s + 1)) p).1 = r p := fun p => by rw [← hr]
  have c0 : 0 < c := by linarith
  have two : 2 ^ (s + 1) = 2 * 2 ^ s := by rw [pow_succ, mul_comm]
  have i0 : ∀ p < 2 ^ s, 2 * p < 2 ^ (s + 1) := fun p hp => by omega
  have i1 : ∀ p < 2 ^ s, 2 * p + 1 < 2 ^ (s + 1) := fun p hp => by omega
  have lo : ∀ p < 2 ^ (s + 1), m ≤ r p := fun p hp => by rw [← hrp]; exact hN.lo p hp
  have hi : ∀ p < 2 ^ (s + 1), r p ≤ M := fun p hp => by rw [← hrp]; exact hN.hi p hp
  -- the mean between the harmonic and the arithmetic mean
  have bd : ∀ p < 2 ^ s, m ≤ x p ∧ x p ≤ M ∧ x p ≤ (r (2 * p) + r (2 * p + 1)) / 2 ∧ 1 / x p ≤ (1 / r (2 * p) + 1 / r (2 * p + 1)) / 2 := by
    intro p hp
    have a := lo _ (i0 p hp)
    have b := lo _ (i1 p hp)
    have a' := hi _ (i0 p hp)
    have b' := hi _ (i1 p hp)
    have h := hx p hp
    rw [hrp, hrp] at h
    generalize r (2 * p) = u at *
    generalize r (2 * p + 1) = v at *
    have u0 : 0 < u := by linarith
    have v0 : 0 < v := by linarith
    have am : u * v / ((u + v) / 2) ≤ (u + v) / 2 := by
      rw [div_le_iff₀ (by positivity)]; nlinarith [sq_nonneg (u - v)]
    have hinv : 1 / (u * v / ((u + v) / 2)) = (1 / u + 1 / v) / 2 := by field_simp; ring
    have hl : m ≤ u * v / ((u + v) / 2) := by
      rw [le_div_iff₀ (by positivity)]
      nlinarith [mul_le_mul_of_nonneg_left a v0.le, mul_le_mul_of_nonneg_left b u0.le]
    have hp0 : 0 < u * v / ((u + v) / 2) := by positivity
    rcases h with h | h
    · rw [h]
      refine ⟨by linarith, by linarith, le_rfl, ?_⟩
      rw [← hinv]
      exact one_div_le_one_div_of_le hp0 am
    · rw [h]
      exact ⟨hl, by linarith, am, hinv.le⟩
  have x0 : ∀ p < 2 ^ s, 0 < x p := fun p hp => by linarith [(bd p hp).1]
  have r0 : ∀ p < 2 ^ s, m / c ≤ val (slot D' (2 ^ s) p).1 := fun p hp => by
    rw [div_le_iff₀ c0]; have := h2 p hp; have := (bd p hp).1; linarith
  have rp : ∀ p < 2 ^ s, 0 < val (slot D' (2 ^ s) p).1 := fun p hp => lt_of_lt_of_le (by positivity) (r0 p hp)
  refine ⟨hw, r0, fun p hp => (h1 p hp).trans (mul_le_mul_of_nonneg_left (bd p hp).2.1 c0.le), him, ?_, ?_⟩
  · have S := hN.mean
    rw [two, sum_pairs] at S
    simp only [← two, hrp] at S
    have k : ∑ p ∈ Finset.range (2 ^ s), val (slot D' (2 ^ s) p).1 ≤ ∑ p ∈ Finset.range (2 ^ s), c / 2 * (r (2 * p) + r (2 * p + 1)) := by
      refine Finset.sum_le_sum fun p hp => ?_
      have hp := Finset.mem_range.1 hp
      have t := mul_le_mul_of_nonneg_left (bd p hp).2.2.1 c0.le
      have := h1 p hp
      linarith
    rw [← Finset.mul_sum] at k
    have t := mul_le_mul_of_nonneg_left S (show (0 : ℝ) ≤ c / 2 by positivity)
    refine k.trans (t.trans (le_of_eq ?_))
    rw [pow_succ]; ring
  · have S := hN.inv
    rw [two, sum_pairs] at S
    simp only [← two, hrp] at S
    have k : ∑ p ∈ Finset.range (2 ^ s), 1 / val (slot D' (2 ^ s) p).1 ≤ ∑ p ∈ Finset.range (2 ^ s), c / 2 * (1 / r (2 * p) + 1 / r (2 * p + 1)) := by
      refine Finset.sum_le_sum fun p hp => ?_
      have hp := Finset.mem_range.1 hp
      have t := mul_le_mul_of_nonneg_left (bd p hp).2.2.2 c0.le
      have q : 1 / val (slot D' (2 ^ s) p).1 ≤ c * (1 / x p) := by
        rw [mul_one_div, div_le_div_iff₀ (rp p hp) (x0 p hp)]; linarith [h2 p hp]
      linarith
    rw [← Finset.mul_sum] at k
    have t := mul_le_mul_of_nonneg_left S (show (0 : ℝ) ≤ c / 2 by positivity)
    refine k.trans (t.trans (le_of_eq ?_))
    rw [pow_succ]; ring

theorem split_slots (s : ℕ) (D : List W) (p : ℕ) (hp : p < 2 ^ s) :
    slot (polySplitFft D (s + 2)).1 (2 ^ s) p = hv (cAdd (slot D (2 ^ (s + 1)) (2 * p)) (slot D (2 ^ (s + 1)) (2 * p + 1))) ∧
    slot (polySplitFft D (s + 2)).2 (2 ^ s) p = hv (cMul (cSub (slot D (2 ^ (s + 1)) (2 * p)) (slot D (2 ^ (s + 1)) (2 * p + 1))) (gmConj (2 ^ (s + 1) + p))) := by
  have e : 2 ^ (s + 2) / 2 = 2 ^ (s + 1) := by rw [pow_succ]; omega
  unfold polySplitFft
  dsimp only
  rw [if_neg (by omega), e, show s + 2 - 1 = s + 1 by omega]
  constructor
  · rw [(ofSlots_slot s _).2 p hp]; rfl
  · rw [(ofSlots_slot s _).2 p hp, Nat.add_comm p]; rfl

theorem ldl_slot (s : ℕ) (a b c : List W) (p : ℕ) (hp : p < 2 ^ s) : slot (polyLdlFft a b c (s + 1)).2 (2 ^ s) p =
    cSub (slot c (2 ^ s) p) (cMul (cDiv (slot b (2 ^ s) p) (slot a (2 ^ s) p)) ((slot b (2 ^ s) p).1, neg (slot b (2 ^ s) p).2)) := by
  have e : 2 ^ (s + 1) / 2 = 2 ^ s := by rw [pow_succ]; omega
  unfold polyLdlFft
  dsimp only
  rw [e, (ofSlots_slot s _).2 p hp]

theorem step_bound (u v m E e ρ : ℝ) (m0 : 0 < m) (hu : m ≤ u) (hv : m ≤ v) (e0 : 0 ≤ e) (hρ : E ^ 2 / m ^ 2 + e / m ≤ ρ) : E ^ 2 / ((u + v) / 2) + e ≤ ρ * (u * v / ((u + v) / 2)) := by
  have u0 : 0 < u := by linarith
  have v0 : 0 < v := by linarith
  have hh : 0 < u * v / ((u + v) / 2) := by positivity
  refine le_trans ?_ (mul_le_mul_of_nonneg_right hρ hh.le)
  rw [add_mul]
  refine add_le_add ?_ ?_
  · rw [show E ^ 2 / m ^ 2 * (u * v / ((u + v) / 2)) = E ^ 2 / ((u + v) / 2) * (u * v / m ^ 2) by field_simp]
    have : 1 ≤ u * v / m ^ 2 := by rw [le_div_iff₀ (by positivity)]; nlinarith
    have p : 0 ≤ E ^ 2 / ((u + v) / 2) := by positivity
    nlinarith
  · have hl : m ≤ u * v / ((u + v) / 2) := by
      rw [le_div_iff₀ (by positivity)]
      nlinarith [mul_le_mul_of_nonneg_left hu v0.le, mul_le_mul_of_nonneg_left hv u0.le]
    have t := mul_le_mul_of_nonneg_left hl (show 0 ≤ e / m by positivity)
    rwa [div_mul_cancel₀ _ m0.ne'] at t

/-- The two children of a node. -/
theorem node_step (s : ℕ) (hs : s ≤ 8) (D : List W) (m M E A H ρ c : ℝ) (hm : 4 ≤ m) (hM : M ≤ 2 ^ 26) (E0 : 0 ≤ E) (hE : E ≤ 1) (hρ : E ^ 2 / m ^ 2 + 128 * uu * M / m ≤ ρ) (hρ2 : ρ ≤ 1 / 2)
    (hc : c = 1 + 2 * ρ) (hN : Node (s + 1) D m M E A H) :
    Node s (polySplitFft D (s + 2)).1 (m / c) (c * M) (2 * E + 128 * uu * M) (c * A) (c * H) ∧
    Node s (polyLdlFft (polySplitFft D (s + 2)).1 (polySplitFft D (s + 2)).2 (polySplitFft D (s + 2)).1 (s + 1)).2 (m / c) (c * M) (2 * E + 128 * uu * M) (c * A) (c * H) := by
  have u0 := uu_pos
  have two : 2 ^ (s + 1) = 2 * 2 ^ s := by rw [pow_succ, mul_comm]
  have i0 : ∀ p < 2 ^ s, 2 * p < 2 ^ (s + 1) := fun p hp => by omega
  have i1 : ∀ p < 2 ^ s, 2 * p + 1 < 2 ^ (s + 1) := fun p hp => by omega
  have m0 : 0 < m := by linarith
  have M0 : 0 < M := lt_of_lt_of_le m0 ((hN.lo 0 (by positivity)).trans (hN.hi 0 (by positivity)))
  have ρ0 : 0 ≤ ρ := le_trans (by positivity) hρ
  have c1 : 1 ≤ c := by linarith
  have key := fun p (hp : p < 2 ^ s) => node_slot (slot D (2 ^ (s + 1)) (2 * p)) (slot D (2 ^ (s + 1)) (2 * p + 1)) (gmConj (2 ^ (s + 1) + p)) (gmE (s + 1) p) (gmE_norm _ _)
    (gmConj_close (s + 1) (by omega) p (by omega)) (hN.weak _ (i0 p hp)) (hN.weak _ (i1 p hp)) m M E hm hM E0 hE (hN.lo _ (i0 p hp)) (hN.lo _ (i1 p hp)) (hN.hi _ (i0 p hp)) (hN.hi _ (i1 p hp))
    (hN.im _ (i0 p hp)) (hN.im _ (i1 p hp)) _ _ _ rfl rfl rfl
  have rel : ∀ y x e : ℝ, 0 < x → |y - x| ≤ e → e ≤ ρ * x → y ≤ c * x ∧ x ≤ c * y := fun y x e hx h1 h2 => by
    obtain ⟨k1, k2⟩ := abs_le.1 (h1.trans h2)
    have k3 : 0 ≤ ρ * x := by positivity
    refine ⟨by rw [hc]; linarith, ?_⟩
    have : (1 - ρ) * x ≤ y := by linarith
    have t := mul_le_mul_of_nonneg_left this (show 0 ≤ c by linarith)
    refine le_trans ?_ t
    have : 1 ≤ c * (1 - ρ) := by rw [hc]; nlinarith
    nlinarith
  obtain ⟨e0, he0⟩ : ∃ e, 128 * uu * M = e := ⟨_, rfl⟩
  rw [he0] at hρ key ⊢
  have e00 : 0 ≤ e0 := by rw [← he0]; positivity
  have em : e0 ≤ ρ * m := by
    rw [← div_le_iff₀ m0]; refine le_trans ?_ hρ; have : 0 ≤ E ^ 2 / m ^ 2 := by positivity
    linarith
  constructor
  · refine node_of s D _ m M E A H _ c (fun p => (val (slot D (2 ^ (s + 1)) (2 * p)).1 + val (slot D (2 ^ (s + 1)) (2 * p + 1)).1) / 2) m0 c1 hN ?_ ?_ (fun p hp => .inl rfl) ?_ ?_
    · intro p hp; rw [(split_slots s D p hp).1]; exact (key p hp).1
    · intro p hp; rw [(split_slots s D p hp).1]; exact (key p hp).2.2.2.1
    all_goals
      intro p hp
      rw [(split_slots s D p hp).1]
      have a := hN.lo _ (i0 p hp)
      have b := hN.lo _ (i1 p hp)
      have r := rel _ _ _ (by linarith) (key p hp).2.2.1 (em.trans (mul_le_mul_of_nonneg_left (by linarith) ρ0))
    · exact r.1
    · exact r.2
  · have sl : ∀ p < 2 ^ s, slot (polyLdlFft (polySplitFft D (s + 2)).1 (polySplitFft D (s + 2)).2 (polySplitFft D (s + 2)).1 (s + 1)).2 (2 ^ s) p = _ := fun p hp => by
      rw [ldl_slot s _ _ _ p hp, (split_slots s D p hp).1, (split_slots s D p hp).2]
    refine node_of s D _ m M E A H _ c (fun p => val (slot D (2 ^ (s + 1)) (2 * p)).1 * val (slot D (2 ^ (s + 1)) (2 * p + 1)).1 /
      ((val (slot D (2 ^ (s + 1)) (2 * p)).1 + val (slot D (2 ^ (s + 1)) (2 * p + 1)).1) / 2)) m0 c1 hN ?_ ?_ (fun p hp => .inr rfl) ?_ ?_
    · intro p hp; rw [sl p hp]; exact (key p hp).2.1
    · intro p hp; rw [sl p hp]; exact (key p hp).2.2.2.2.2
    all_goals
      intro p hp
      rw [sl p hp]
      have a := hN.lo _ (i0 p hp)
      have b := hN.lo _ (i1 p hp)
      have K := (key p hp).2.2.2.2.1
      have r := rel _ _ _ ?_ K ?_
    · exact r.1
    · have : 0 < val (slot D (2 ^ (s + 1)) (2 * p)).1 := by linarith
      have : 0 < val (slot D (2 ^ (s + 1)) (2 * p + 1)).1 := by linarith
      positivity
    · generalize val (slot D (2 ^ (s + 1)) (2 * p)).1 = u at *
      generalize val (slot D (2 ^ (s + 1)) (2 * p + 1)).1 = v at *
      exact step_bound u v m E e0 ρ m0 a b e00 hρ
    · exact r.2
    · have : 0 < val (slot D (2 ^ (s + 1)) (2 * p)).1 := by linarith
      have : 0 < val (slot D (2 ^ (s + 1)) (2 * p + 1)).1 := by linarith
      positivity
    · generalize val (slot D (2 ^ (s + 1)) (2 * p)).1 = u at *
      generalize val (slot D (2 ^ (s + 1)) (2 * p + 1)).1 = v at *
      exact step_bound u v m E e0 ρ m0 a b e00 hρ

end Verif.CRef.Fft
