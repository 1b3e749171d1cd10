import Verif.Falcon.Lemmas
import Mathlib.Tactic.NormNum.Prime
import Mathlib.Algebra.Field.ZMod

/-! Consequences of the assumptions on the transforms. -/

namespace Verif.Falcon

open Verif Verif.Ring Finset

theorem prime_q : Nat.Prime 12289 := by norm_num
instance : Fact (Nat.Prime 12289) := ⟨prime_q⟩

theorem cast_emod (x : Int) : ((x % 12289 : Int) : Zq) = (x : Zq) := by
  rw [ZMod.intCast_eq_intCast_iff]; exact Int.mod_modEq _ _

theorem reduced_eq {a b : List Int} (ha : Reduced a) (hb : Reduced b) (h : zq a = zq b) : a = b := by
  have hl : a.length = b.length := by rw [← length_zq a, h, length_zq]
  apply List.ext_getElem hl
  intro i h1 h2
  have e : ((a[i] : Int) : Zq) = ((b[i] : Int) : Zq) := by
    have := congrArg (fun l => l[i]?) h
    simpa [zq, List.getElem?_map, h1, h2] using this
  rw [ZMod.intCast_eq_intCast_iff] at e
  obtain ⟨a1, a2⟩ := ha _ (List.getElem_mem h1)
  obtain ⟨b1, b2⟩ := hb _ (List.getElem_mem h2)
  have e' : a[i] % 12289 = b[i] % 12289 := e
  rwa [Int.emod_eq_of_lt a1 a2, Int.emod_eq_of_lt b1 b2] at e'

theorem zq_ext {a b : List Int} {n : Nat} (ha : a.length = n) (hb : b.length = n)
    (h : ∀ i < n, ((a.getD i 0 : Int) : Zq) = ((b.getD i 0 : Int) : Zq)) : zq a = zq b := by
  unfold zq
  apply List.ext_getElem (by simp [ha, hb])
  intro i h1 h2
  have := h i (by simpa [ha] using h1)
  rw [List.getElem_map, List.getElem_map]
  simpa [List.getD_eq_getElem?_getD, show i < a.length by simpa using h1, show i < b.length by simpa using h2] using this

theorem vec_get {c a b : List Int} (h : zq c = List.zipWith (· * ·) (zq a) (zq b)) (i : Nat) (ha : i < a.length) (hb : i < b.length) :
    ((c.getD i 0 : Int) : Zq) = ((a.getD i 0 : Int) : Zq) * ((b.getD i 0 : Int) : Zq) := by
  have hc : i < c.length := by
    have := congrArg List.length h
    simp at this; omega
  have := congrArg (fun l => l[i]?) h
  simp only [zq, List.getElem?_zipWith, List.getElem?_map, List.getElem?_eq_getElem ha, List.getElem?_eq_getElem hb, List.getElem?_eq_getElem hc, Option.map_some] at this
  simpa [List.getD_eq_getElem?_getD, ha, hb, hc] using this

variable {P : PolyLib} {n : Nat} {w : Nat → Zq}

theorem NttLaw.ev_ntt (L : NttLaw P n w) (a : List Int) (ha : a.length = n) (i : Nat) (hi : i < n) :
    (((P.ntt a).getD i 0 : Int) : Zq) = ev (w i) a := by
  rw [(L.ntt a ha).2.2 i hi, ← Polynomial.coe_aeval_eq_eval, aeval_toPoly, ev_zq]

theorem NttLaw.ev_intt (L : NttLaw P n w) (a : List Int) (ha : a.length = n) (i : Nat) (hi : i < n) :
    ev (w i) (P.intt a) = ((a.getD i 0 : Int) : Zq) := by
  obtain ⟨i1, _, i3⟩ := L.intt a ha
  rw [← L.ev_ntt _ i1 i hi]
  have hl := (L.ntt _ i1).1
  have := congrArg (fun l => l[i]?) i3
  simpa [zq, List.getElem?_map, List.getD_eq_getElem?_getD, hl, ha, hi] using this

/-- polynomials with the same values have the same coefficients -/
theorem NttLaw.inj (L : NttLaw P n w) (a b : List Int) (ha : a.length = n) (hb : b.length = n) (h : ∀ i < n, ev (w i) a = ev (w i) b) : zq a = zq b := by
  obtain ⟨a1, a2, _⟩ := L.ntt a ha
  obtain ⟨b1, b2, _⟩ := L.ntt b hb
  have : P.ntt a = P.ntt b := by
    apply reduced_eq a2 b2
    apply zq_ext a1 b1
    intro i hi
    rw [L.ev_ntt a ha i hi, L.ev_ntt b hb i hi, h i hi]
  rw [← L.left a ha, ← L.left b hb, this]

theorem zq_one (n : Nat) : zq (1 :: List.replicate (n - 1) 0) = one n := by simp [zq, one]

theorem length_one (n : Nat) (hn : 0 < n) : (1 :: List.replicate (n - 1) 0 : List Int).length = n := by simp; omega

theorem NttLaw.product_one (L : NttLaw P n w) (hn : 0 < n) (a b : List Int) (ha : a.length = n) (hb : b.length = n)
    (h : ∀ i < n, ev (w i) a * ev (w i) b = 1) : negMul n (zq a) (zq b) = one n := by
  rw [← zq_negMul n a b ha hb hn, ← zq_one]
  apply L.inj _ _ (by simp) (length_one n hn)
  intro i hi
  rw [ev_negMul _ n (L.root i hi) _ _ ha hb, h i hi, ev_const, map_one]

/-- `f` is invertible exactly when its transform has no zero -/
theorem NttLaw.unit_iff (L : NttLaw P n w) (hn : 0 < n) (a : List Int) (ha : a.length = n) :
    (∀ x ∈ P.ntt a, x ≠ 0) ↔ ∃ i : List Zq, i.length = n ∧ negMul n (zq a) i = one n := by
  obtain ⟨a1, a2, _⟩ := L.ntt a ha
  have nz : ∀ i < n, ((P.ntt a).getD i 0 ≠ 0 ↔ ev (w i) a ≠ 0) := by
    intro i hi
    rw [← L.ev_ntt a ha i hi]
    have hi' : i < (P.ntt a).length := by omega
    rw [List.getD_eq_getElem?_getD, List.getElem?_eq_getElem hi', Option.getD_some]
    obtain ⟨b1, b2⟩ := a2 _ (List.getElem_mem hi')
    rw [not_iff_not, ZMod.intCast_zmod_eq_zero_iff_dvd]
    constructor
    · intro h; rw [h]; exact dvd_zero _
    · intro h; exact Int.eq_zero_of_dvd_of_nonneg_of_lt b1 (by exact_mod_cast b2) h
  constructor
  · intro h
    have hlen : ((List.range n).map fun i => ((ev (w i) a)⁻¹.val : Int)).length = n := by simp
    obtain ⟨i1, _, _⟩ := L.intt _ hlen
    refine ⟨zq (P.intt ((List.range n).map fun i => ((ev (w i) a)⁻¹.val : Int))), by simpa using i1, ?_⟩
    apply L.product_one hn a _ ha i1
    intro i hi
    rw [L.ev_intt _ hlen i hi]
    have hv : ((List.range n).map fun i => ((ev (w i) a)⁻¹.val : Int)).getD i 0 = ((ev (w i) a)⁻¹.val : Int) := by
      rw [List.getD_eq_getElem?_getD, List.getElem?_map, List.getElem?_eq_getElem (by simpa using hi)]; simp
    rw [hv, Int.cast_natCast, ZMod.natCast_zmod_val]
    apply mul_inv_cancel₀
    rw [← nz i hi, List.getD_eq_getElem?_getD, List.getElem?_eq_getElem (by omega), Option.getD_some]
    exact h _ (List.getElem_mem _)
  · rintro ⟨b, hb, hu⟩ x hx
    obtain ⟨i, hi, rfl⟩ := List.getElem_of_mem hx
    have hi' : i < n := by omega
    have := (nz i hi').2 ?_
    · rwa [List.getD_eq_getElem?_getD, List.getElem?_eq_getElem hi, Option.getD_some] at this
    · intro h0
      have := congrArg (ev (w i)) hu
      rw [ev_negMul _ n (L.root i hi') _ _ (by simpa using ha) hb, ev_zq, h0, one, ev_const, map_one, zero_mul] at this
      exact zero_ne_one this

end Verif.Falcon
