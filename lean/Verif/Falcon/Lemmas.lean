import Verif.Falcon.Spec
import Verif.Ring.Quot
import Verif.Encoding.Props
import Verif.Hash.Props
import Mathlib.Tactic.Linarith
import Mathlib.Tactic.Ring

/-! Helper lemmas for signing and verification. -/

namespace Verif.Falcon

open Verif Verif.Ring Verif.Hash Finset

abbrev Zq := ZMod 12289

@[simp] theorem length_zq (a : List Int) : (zq a).length = a.length := by simp [zq]

/-! ## centring -/

theorem centre_eq (c : Int) : centre c = (c + 6144) % 12289 - 6144 := rfl

theorem centre_mod (c : Int) : ((centre c : Int) : Zq) = (c : Zq) := by
  rw [ZMod.intCast_eq_intCast_iff, centre_eq]
  have : Int.ModEq 12289 ((c + 6144) % 12289) (c + 6144) := Int.mod_modEq _ _
  simpa using this.sub_right 6144

theorem centre_shortest (c x : Int) (h : (x : Zq) = (c : Zq)) : centre c ^ 2 ≤ x ^ 2 := by
  rw [ZMod.intCast_eq_intCast_iff] at h
  have h' : x % 12289 = c % 12289 := h
  rw [centre_eq]
  by_cases hx : (c + 6144) % 12289 - 6144 = x
  · rw [hx]
  · have h1 : -6144 ≤ (c + 6144) % 12289 - 6144 := by omega
    have h2 : (c + 6144) % 12289 - 6144 ≤ 6144 := by omega
    have h3 : 6145 ≤ x ∨ x ≤ -6145 := by omega
    rcases h3 with h3 | h3 <;> nlinarith

theorem zq_centre (a : List Int) : zq (a.map centre) = zq a := by
  unfold zq
  rw [List.map_map]
  apply List.map_congr_left
  intro x _
  exact centre_mod x

theorem sumSq_eq (l : List Int) : sumSq l = normSq l := by
  unfold sumSq normSq
  congr 1
  apply List.map_congr_left
  intro x _
  exact sq x

/-- among all integer vectors with the same residues the centred one is shortest -/
theorem normSq_centre_le : ∀ (a b : List Int), zq a = zq b → normSq (b.map centre) ≤ normSq a
  | [], [], _ => le_refl _
  | [], b :: bs, h => by simp [zq] at h
  | a :: as, [], h => by simp [zq] at h
  | a :: as, b :: bs, h => by
    have h1 : (a : Zq) = b := by simpa [zq] using congrArg (fun l => l.headD 0) h
    have h2 : zq as = zq bs := by simpa [zq] using congrArg List.tail h
    have := normSq_centre_le as bs h2
    have := centre_shortest b a h1
    simp only [normSq, List.map_cons, List.sum_cons] at *
    nlinarith

/-! ## evaluation -/

variable {R : Type} [CommRing R] {A : Type} [CommRing A] [Algebra R A]

theorem ev_zipWith_add (r : A) (n : Nat) (a b : List R) (ha : a.length = n) (hb : b.length = n) :
    ev r (List.zipWith (· + ·) a b) = ev r a + ev r b := by
  unfold ev
  rw [List.length_zipWith, ha, hb, min_self, ← sum_add_distrib]
  apply sum_congr rfl
  intro i hi
  have hi : i < n := by simpa using hi
  rw [at'_lt _ _ (by simp; omega), at'_lt _ _ (by omega), at'_lt _ _ (by omega), List.getElem_zipWith, map_add, add_mul]

theorem ev_zipWith_sub (r : A) (n : Nat) (a b : List R) (ha : a.length = n) (hb : b.length = n) :
    ev r (List.zipWith (· - ·) a b) = ev r a - ev r b := by
  unfold ev
  rw [List.length_zipWith, ha, hb, min_self, ← sum_sub_distrib]
  apply sum_congr rfl
  intro i hi
  have hi : i < n := by simpa using hi
  rw [at'_lt _ _ (by simp; omega), at'_lt _ _ (by omega), at'_lt _ _ (by omega), List.getElem_zipWith, map_sub, sub_mul]

theorem ev_neg (r : A) (a : List R) : ev r (a.map (- ·)) = - ev r a := by
  unfold ev
  rw [List.length_map, ← sum_neg_distrib]
  apply sum_congr rfl
  intro i hi
  have hi : i < a.length := by simpa using hi
  rw [at'_lt _ _ (by simpa using hi), at'_lt _ _ hi, List.getElem_map, map_neg, neg_mul]

theorem ev_const (r : A) (c : R) (m : Nat) : ev r (c :: List.replicate m 0) = algebraMap R A c := by
  unfold ev
  rw [List.length_cons, List.length_replicate, sum_range_succ']
  rw [sum_eq_zero]
  · simp [at']
  · intro i hi
    have hi : i < m := by simpa using hi
    have : at' (c :: List.replicate m 0) (i + 1) = 0 := by
      unfold at'; simp [List.getD_eq_getElem?_getD, hi]
    rw [this]; simp

/-- evaluation of the residues is evaluation of the integers -/
theorem ev_zq [Algebra Zq A] [Algebra ℤ A] (r : A) (a : List Int) : ev r (zq a) = ev r a := by
  unfold ev
  rw [length_zq]
  apply sum_congr rfl
  intro i hi
  have hi : i < a.length := by simpa using hi
  rw [at'_lt _ _ (by simpa using hi), at'_lt _ _ hi]
  simp [zq]

/-! ## The Python-side product is the schoolbook product -/

theorem list_sum_range (n : Nat) (f : Nat → Int) : ((List.range n).map f).sum = ∑ i ∈ range n, f i := by
  induction n with
  | zero => rfl
  | succ n ih => rw [List.range_succ, List.map_append, List.sum_append, ih, sum_range_succ]; simp

theorem pmul_eq (n : Nat) (a b : List Int) : pmul n a b = negMul n a b := by
  unfold pmul negMul
  apply List.map_congr_left
  intro k hk
  have hk : k < n := by simpa using hk
  unfold negCoeff
  rw [list_sum_range]
  apply sum_congr rfl
  intro i hi
  have hi : i < n := by simpa using hi
  split
  · rw [sum_eq_single (k - i)]
    · rw [if_pos (by omega)]
    · intro j hj hne
      have hj : j < n := by simpa using hj
      rw [if_neg (by omega), if_neg (by omega)]
    · intro h; exact absurd (by simp; omega) h
  · rw [sum_eq_single (n + k - i)]
    · rw [if_neg (by omega), if_pos (by omega)]
    · intro j hj hne
      have hj : j < n := by simpa using hj
      rw [if_neg (by omega), if_neg (by omega)]
    · intro h; exact absurd (by simp; omega) h

theorem zq_negMul (n : Nat) (a b : List Int) (ha : a.length = n) (hb : b.length = n) (hn : 0 < n) : zq (negMul n a b) = negMul n (zq a) (zq b) := by
  apply list_eq_of_ev n hn _ _ (by simp) (by simp)
  rw [ev_zq, ev_negMul _ n (rt_pow n) _ _ ha hb, ev_negMul _ n (rt_pow n) _ _ (by simpa using ha) (by simpa using hb), ev_zq, ev_zq]

/-! ## preimages -/

@[simp] theorem length_pmul (n : Nat) (a b : List Int) : (pmul n a b).length = n := by simp [pmul]

/-- the ring in which everything is compared -/
abbrev Aq (n : Nat) := AdjoinRoot (Polynomial.X ^ n + 1 : Polynomial Zq)

theorem q_zero (n : Nat) : ((12289 : ℤ) : Aq n) = 0 := by
  have h : algebraMap Zq (Aq n) ((12289 : ℤ) : Zq) = ((12289 : ℤ) : Aq n) := map_intCast _ _
  rw [← h, show ((12289 : ℤ) : Zq) = 0 from by decide, map_zero]

theorem isPreimage_iff (n : Nat) (hn : 0 < n) (h c s0 s1 : List Int) (hh : h.length = n) (hc : c.length = n) :
    IsPreimage n h c s0 s1 ↔ s0.length = n ∧ s1.length = n ∧
      ev (rt Zq n) s0 + ev (rt Zq n) s1 * ev (rt Zq n) h = ev (rt Zq n) c := by
  unfold IsPreimage
  refine and_congr_right fun h0 => and_congr_right fun h1 => ?_
  have e : ev (rt Zq n) (List.zipWith (· + ·) (zq s0) (negMul n (zq s1) (zq h))) =
      ev (rt Zq n) s0 + ev (rt Zq n) s1 * ev (rt Zq n) h := by
    rw [ev_zipWith_add _ n _ _ (by simpa using h0) (by simp), ev_negMul _ n (rt_pow n) _ _ (by simpa using h1) (by simpa using hh),
      ev_zq, ev_zq, ev_zq]
  constructor
  · intro k
    rw [← e, k, ev_zq]
  · intro k
    apply list_eq_of_ev n hn _ _ (by simp [h0]) (by simpa using hc)
    rw [e, k, ev_zq]

theorem key_G (n : Nat) (sk : SecretKey) (K : IsKey n sk) :
    ev (rt Zq n) sk.h * ev (rt Zq n) sk.f = ev (rt Zq n) sk.g ∧ ev (rt Zq n) sk.G = ev (rt Zq n) sk.F * ev (rt Zq n) sk.h := by
  have e1 : ev (rt Zq n) sk.h * ev (rt Zq n) sk.f = ev (rt Zq n) sk.g := by
    have := congrArg (ev (rt Zq n)) K.pub
    rwa [ev_negMul _ n (rt_pow n) _ _ (by simpa using K.lh) (by simpa using K.lf), ev_zq, ev_zq, ev_zq] at this
  have e2 : ev (rt Zq n) sk.f * ev (rt Zq n) sk.G = ev (rt Zq n) sk.g * ev (rt Zq n) sk.F := by
    have := congrArg (ev (rt Zq n)) K.ntru
    rw [ev_zipWith_sub _ n _ _ (by simp) (by simp), ev_negMul _ n (rt_pow n) _ _ K.lf K.lG,
      ev_negMul _ n (rt_pow n) _ _ K.lg K.lF, ev_const] at this
    have q0 : (algebraMap ℤ (Aq n)) 12289 = 0 := q_zero n
    rw [q0] at this
    exact sub_eq_zero.1 this
  refine ⟨e1, ?_⟩
  obtain ⟨i, hi, hu⟩ := K.unit
  have u := congrArg (ev (rt Zq n)) hu
  rw [ev_negMul _ n (rt_pow n) _ _ (by simpa using K.lf) hi, ev_zq, one, ev_const, map_one] at u
  calc ev (rt Zq n) sk.G = (ev (rt Zq n) sk.f * ev (rt Zq n) i) * ev (rt Zq n) sk.G := by rw [u, one_mul]
    _ = ev (rt Zq n) i * (ev (rt Zq n) sk.f * ev (rt Zq n) sk.G) := by ring
    _ = (ev (rt Zq n) sk.f * ev (rt Zq n) i) * (ev (rt Zq n) sk.F * ev (rt Zq n) sk.h) := by rw [e2, ← e1]; ring
    _ = _ := by rw [u, one_mul]

theorem samplePreimage_isPreimage (n : Nat) (hn : 0 < n) (sk : SecretKey) (K : IsKey n sk) (point : List Int) (hp : point.length = n)
    (z : List Int × List Int) (h1 : z.1.length = n) (h2 : z.2.length = n) :
    IsPreimage n sk.h point (samplePreimage n sk point z).1 (samplePreimage n sk point z).2 := by
  rw [isPreimage_iff n hn _ _ _ _ K.lh hp]
  obtain ⟨k1, k2⟩ := key_G n sk K
  have lz : ∀ a b : List Int, a.length = n → b.length = n → (padd a b).length = n := by intro a b ha hb; simp [padd, ha, hb]
  have l0 := lz (pmul n z.1 sk.g) (pmul n z.2 sk.G) (by simp) (by simp)
  refine ⟨by simp [samplePreimage, psub, hp, l0], by simp [samplePreimage, pneg, lz], ?_⟩
  have e0 : ev (rt Zq n) (samplePreimage n sk point z).1 = ev (rt Zq n) point -
      (ev (rt Zq n) z.1 * ev (rt Zq n) sk.g + ev (rt Zq n) z.2 * ev (rt Zq n) sk.G) := by
    show ev (rt Zq n) (psub _ _) = _
    unfold psub
    rw [ev_zipWith_sub _ n _ _ hp l0]
    unfold padd
    rw [ev_zipWith_add _ n _ _ (by simp) (by simp), pmul_eq, pmul_eq, ev_negMul _ n (rt_pow n) _ _ h1 K.lg,
      ev_negMul _ n (rt_pow n) _ _ h2 K.lG]
  have e1 : ev (rt Zq n) (samplePreimage n sk point z).2 =
      ev (rt Zq n) z.1 * ev (rt Zq n) sk.f + ev (rt Zq n) z.2 * ev (rt Zq n) sk.F := by
    show ev (rt Zq n) (pneg _) = _
    unfold pneg
    rw [ev_neg]
    unfold padd
    rw [ev_zipWith_add _ n _ _ (by simp) (by simp), pmul_eq, pmul_eq, ev_negMul _ n (rt_pow n) _ _ h1 (by simp [K.lf]),
      ev_negMul _ n (rt_pow n) _ _ h2 (by simp [K.lF]), ev_neg, ev_neg]
    ring
  rw [e0, e1, k2, ← k1]
  ring

end Verif.Falcon
