import Verif.CRef.Props
import Verif.Epervier.Props

/-! # C85: keys, inverses, hints and key recovery in the C code -/

namespace Verif.CRef

open Verif.NTT Verif.Ring Verif.Falcon

variable {k : ℕ}

theorem zq_val (a : List (ZMod 12289)) : zq (List.map (fun x : ZMod 12289 => (x.val : ℤ)) a) = a := by
  unfold zq
  rw [List.map_map]
  conv_rhs => rw [← List.map_id a]
  exact List.map_congr_left fun x _ => by simp

theorem get_zq (a : List ℤ) (i : ℕ) (h : i < (zq a).length) : (zq a)[i] = ((a[i]! : ℤ) : ZMod 12289) := by
  unfold zq at h ⊢
  rw [List.length_map] at h
  rw [List.getElem_map, getElem!_pos a i h]

theorem ev_inj (hk : k ≤ 10) (a b : List (ZMod 12289)) (ha : a.length = 2 ^ k) (hb : b.length = 2 ^ k)
    (h : ∀ i < 2 ^ k, ev (rootC k i) a = ev (rootC k i) b) : a = b := by
  rw [← zq_val a, ← zq_val b]
  refine (cLib_law k hk).inj _ _ (by simpa using ha) (by simpa using hb) fun i hi => ?_
  rw [← ev_zq, ← ev_zq, zq_val, zq_val]
  exact h i hi

theorem mul_iff (hk : k ≤ 10) (a b c : List (ZMod 12289)) (ha : a.length = 2 ^ k) (hb : b.length = 2 ^ k) (hc : c.length = 2 ^ k) :
    negMul (2 ^ k) a b = c ↔ ∀ i < 2 ^ k, ev (rootC k i) a * ev (rootC k i) b = ev (rootC k i) c := by
  constructor
  · rintro h i hi
    rw [← h, ev_negMul _ (2 ^ k) (rootC_pow k hk i hi) a b ha hb]
  · intro h
    apply ev_inj hk _ _ (by simp) hc
    intro i hi
    rw [ev_negMul _ (2 ^ k) (rootC_pow k hk i hi) a b ha hb, h i hi]

theorem unit_ev (hk : k ≤ 10) (a : List (ZMod 12289)) (ha : a.length = 2 ^ k) : IsUnitPoly (2 ^ k) a ↔ ∀ i < 2 ^ k, ev (rootC k i) a ≠ 0 := by
  have L := cLib_law k hk
  have hl : (List.map (fun x : ZMod 12289 => (x.val : ℤ)) a).length = 2 ^ k := by simpa using ha
  have h := L.unit_iff (Nat.two_pow_pos k) _ hl
  rw [zq_val] at h
  unfold IsUnitPoly
  rw [← h]
  obtain ⟨n1, n2, _⟩ := L.ntt _ hl
  have key : ∀ i, (hi : i < 2 ^ k) → (((cLib k).ntt (List.map (fun x : ZMod 12289 => (x.val : ℤ)) a))[i]'(by omega) = 0 ↔ ev (rootC k i) a = 0) := by
    intro i hi
    have e := L.ev_ntt _ hl i hi
    rw [← ev_zq, zq_val] at e
    rw [← e, List.getD_eq_getElem?_getD, List.getElem?_eq_getElem (by omega), Option.getD_some]
    obtain ⟨b1, b2⟩ := n2 _ (List.getElem_mem (show i < _ by omega))
    rw [ZMod.intCast_zmod_eq_zero_iff_dvd]
    constructor
    · intro h; rw [h]; exact dvd_zero _
    · intro h; exact Int.eq_zero_of_dvd_of_nonneg_of_lt b1 (by exact_mod_cast b2) h
  constructor
  · intro h i hi h0
    exact h _ (List.getElem_mem (show i < _ by omega)) ((key i hi).2 h0)
  · intro h x hx h0
    obtain ⟨i, hi, rfl⟩ := List.getElem_of_mem hx
    exact h i (by omega) ((key i (by omega)).1 h0)

/-! ## Transforms of signed vectors -/

/-- The range in which one conditional addition of q reduces correctly. -/
def Small (s : List ℤ) : Prop := ∀ x ∈ s, -12289 ≤ x ∧ x < 12289

theorem nttS_ok (hk : k ≤ 10) (s : List ℤ) (hs : s.length = 2 ^ k) (h : Small s) : (mqNTT k (reduceAll k s)).length = 2 ^ k ∧ Canon (mqNTT k (reduceAll k s)) ∧
    ∀ i < 2 ^ k, (((mqNTT k (reduceAll k s))[i]! : ℕ) : ZMod 12289) = ev (rootC k i) (zq s) := by
  obtain ⟨r1, r2, r3⟩ := reduceAll_ok k s hs h
  obtain ⟨n1, n2⟩ := mqNTT_ok k _ r1 r2
  exact ⟨n1, n2, fun i hi => by rw [mqNTT_ev k hk _ r1 r2 i hi, r3]⟩

theorem cast_zero_iff (x : ℕ) (h : x < 12289) : ((x : ℕ) : ZMod 12289) = 0 ↔ x = 0 := by
  rw [ZMod.natCast_eq_zero_iff]
  constructor
  · intro hd; exact Nat.eq_zero_of_dvd_of_lt hd h
  · rintro rfl; exact dvd_zero _

theorem nonzero_iff (hk : k ≤ 10) (s : List ℤ) (hs : s.length = 2 ^ k) (h : Small s) :
    (∀ i < 2 ^ k, (mqNTT k (reduceAll k s))[i]! ≠ 0) ↔ IsUnitPoly (2 ^ k) (zq s) := by
  obtain ⟨_, n2, n3⟩ := nttS_ok hk s hs h
  rw [unit_ev hk _ (by simpa using hs)]
  refine forall_congr' fun i => forall_congr' fun hi => ?_
  rw [← n3 i hi, Ne, Ne, cast_zero_iff _ (n2 i)]

theorem sub32_one (x : ℕ) (h : x < 12289) : sub32 x 1 = if x = 0 then 4294967295 else x - 1 := by
  unfold sub32; split <;> omega

theorem zeroFlag_ok (n : ℕ) (t : List ℕ) (h : Canon t) :
    (List.range n).foldl (fun r u => r ||| sub32 t[u]! 1) 0 < 4294967296 ∧
    (2147483648 ≤ (List.range n).foldl (fun r u => r ||| sub32 t[u]! 1) 0 ↔ ∃ i < n, t[i]! = 0) := by
  induction n with
  | zero => exact ⟨by simp, by simp⟩
  | succ n ih =>
    rw [List.range_succ, List.foldl_append, List.foldl_cons, List.foldl_nil]
    generalize (List.range n).foldl (fun r u => r ||| sub32 t[u]! 1) 0 = r at ih ⊢
    have e := sub32_one _ (h n)
    have hlt : sub32 t[n]! 1 < 4294967296 := by rw [e]; split <;> have := h n <;> omega
    refine ⟨Nat.or_lt_two_pow (n := 32) ih.1 hlt, ?_⟩
    constructor
    · intro hge
      by_cases h0 : t[n]! = 0
      · exact ⟨n, by omega, h0⟩
      · rw [if_neg h0] at e
        have : 2147483648 ≤ r := by
          by_contra hr
          have : r ||| sub32 t[n]! 1 < 2 ^ 31 := Nat.or_lt_two_pow (by omega) (by rw [e]; have := h n; omega)
          omega
        obtain ⟨i, hi, hz⟩ := ih.2.1 this
        exact ⟨i, by omega, hz⟩
    · rintro ⟨i, hi, hz⟩
      rcases Nat.lt_succ_iff_lt_or_eq.1 hi with hi | rfl
      · exact le_trans (ih.2.2 ⟨i, hi, hz⟩) Nat.left_le_or
      · rw [if_pos hz] at e
        exact le_trans (by rw [e]; norm_num) Nat.right_le_or

/-- **C85** (invertibility): `is_invertible` decides whether `s2` is a unit of `Z_q[x]/(x^n+1)`, for coefficients of absolute value at most q. -/
theorem C85_is_invertible (hk : k ≤ 10) (s2 : List ℤ) (hs : s2.length = 2 ^ k) (h : Small s2) :
    isInvertible k s2 = true ↔ IsUnitPoly (2 ^ k) (zq s2) := by
  obtain ⟨n1, n2, n3⟩ := nttS_ok hk s2 hs h
  rw [← nonzero_iff hk s2 hs h]
  obtain ⟨z1, z2⟩ := zeroFlag_ok (2 ^ k) _ n2
  unfold isInvertible zeroFlag
  rw [shift31 _ z1, decide_eq_true_iff]
  by_cases hz : (List.range (2 ^ k)).foldl (fun r u => r ||| sub32 (mqNTT k (reduceAll k s2))[u]! 1) 0 < 2147483648
  · rw [if_pos hz]
    refine ⟨fun _ i hi h0 => ?_, fun _ => by decide⟩
    have := z2.2 ⟨i, hi, h0⟩
    omega
  · rw [if_neg hz]
    refine ⟨fun h => absurd h (by decide), fun h => ?_⟩
    obtain ⟨i, hi, h0⟩ := z2.1 (by omega)
    exact absurd h0 (h i hi)

/-! ## Quotients -/

/-- The quotient of two transforms, pointwise. -/
theorem div_ok (u v : List ℕ) (hu : Canon u) (hv : Canon v) (n : ℕ) : ((List.range n).map fun i => u16 (mqDiv u[i]! v[i]!)).length = n ∧
    Canon ((List.range n).map fun i => u16 (mqDiv u[i]! v[i]!)) ∧
    ∀ i < n, v[i]! ≠ 0 → (((((List.range n).map fun i => u16 (mqDiv u[i]! v[i]!))[i]! : ℕ) : ZMod 12289)) * (v[i]! : ℕ) = (u[i]! : ℕ) := by
  have hlt : ∀ i, mqDiv u[i]! v[i]! < 12289 := fun i => (C76_div _ _ (hu i) (hv i)).1
  refine ⟨by simp, canon_map _ _ (fun i _ => by rw [u16_of_lt _ (hlt i)]; exact hlt i), fun i hi h0 => ?_⟩
  rw [get_map _ _ i hi, u16_of_lt _ (hlt i)]
  exact mqDiv_mul _ _ (hu i) (hv i) (Nat.pos_of_ne_zero h0)

theorem poly_eq (_hk : k ≤ 10) (a b : List ℕ) (ha : Poly (2 ^ k) a) (hb : Poly (2 ^ k) b) (h : NTT.toZ 12289 a = NTT.toZ 12289 b) : a = b := by
  apply list_eq_of_res (q := 12289) _ _ (by rw [ha.1, hb.1]) (fun x _ => ha.canon x) (fun x _ => hb.canon x)
  intro x hx
  have e := congrArg (fun l => l[x]?) h
  rw [List.getElem?_eq_getElem (by rw [length_toZ]; exact hx), List.getElem?_eq_getElem (by rw [length_toZ, hb.1, ← ha.1]; exact hx)] at e
  have e' := Option.some.inj e
  rwa [get_toZ, get_toZ] at e'

theorem ev_intt (hk : k ≤ 10) (a : List ℕ) (ha : a.length = 2 ^ k) (h : Canon a) (i : ℕ) (hi : i < 2 ^ k) :
    ev (rootC k i) (NTT.toZ 12289 (mqINTT k a)) = ((a[i]! : ℕ) : ZMod 12289) := by
  obtain ⟨i1, i2⟩ := mqINTT_ok k a ha h
  rw [← mqNTT_ev k hk _ i1 i2 i hi, mqNTT_mqINTT k hk a ha h]

/-- A quotient in the ring: with `v` the transform of `b` (all values nonzero) and `u` that of `a`, the inverse transform of `u/v` is the only canonical `h` with `h*b = a`. -/
theorem quotient_ok (hk : k ≤ 10) (u v : List ℕ) (a b : List (ZMod 12289)) (ha : a.length = 2 ^ k) (hb : b.length = 2 ^ k) (hu : Canon u) (hv : Canon v)
    (eu : ∀ i < 2 ^ k, ((u[i]! : ℕ) : ZMod 12289) = ev (rootC k i) a) (ev' : ∀ i < 2 ^ k, ((v[i]! : ℕ) : ZMod 12289) = ev (rootC k i) b)
    (hn : ∀ i < 2 ^ k, v[i]! ≠ 0) :
    Poly (2 ^ k) (mqINTT k ((List.range (2 ^ k)).map fun i => u16 (mqDiv u[i]! v[i]!))) ∧
    negMul (2 ^ k) (NTT.toZ 12289 (mqINTT k ((List.range (2 ^ k)).map fun i => u16 (mqDiv u[i]! v[i]!)))) b = a := by
  obtain ⟨d1, d2, d3⟩ := div_ok u v hu hv (2 ^ k)
  obtain ⟨i1, i2⟩ := mqINTT_ok k _ d1 d2
  refine ⟨poly_of i1 i2, ?_⟩
  rw [mul_iff hk _ _ _ (by rw [length_toZ, i1]) hb ha]
  intro i hi
  rw [ev_intt hk _ d1 d2 i hi, ← ev' i hi, d3 i hi (hn i hi), eu i hi]

theorem quotient_unique (hk : k ≤ 10) (h h' : List (ZMod 12289)) (a b : List (ZMod 12289)) (lh : h.length = 2 ^ k) (lh' : h'.length = 2 ^ k)
    (ha : a.length = 2 ^ k) (hb : b.length = 2 ^ k) (hu : IsUnitPoly (2 ^ k) b) (e : negMul (2 ^ k) h b = a) (e' : negMul (2 ^ k) h' b = a) : h = h' := by
  rw [unit_ev hk b hb] at hu
  rw [mul_iff hk _ _ _ lh hb ha] at e
  rw [mul_iff hk _ _ _ lh' hb ha] at e'
  exact ev_inj hk _ _ lh lh' fun i hi => mul_right_cancel₀ (hu i hi) ((e i hi).trans (e' i hi).symm)

theorem small_of_int8 (f : List ℤ) (h : ∀ x ∈ f, -128 ≤ x ∧ x ≤ 127) : Small f := fun x hx => by have := h x hx; omega

theorem any_zero (n : ℕ) (t : List ℕ) : (List.range n).any (fun u => t[u]! == 0) = true ↔ ∃ i < n, t[i]! = 0 := by
  simp [List.any_eq_true]

/-- **C85** (public key): `compute_public` returns exactly the canonical `h` with `h*f = g`, and fails exactly when `f` is not invertible modulo q. -/
theorem C85_compute_public (hk : k ≤ 10) (f g : List ℤ) (hf : f.length = 2 ^ k) (hg : g.length = 2 ^ k) (bf : ∀ x ∈ f, -128 ≤ x ∧ x ≤ 127)
    (bg : ∀ x ∈ g, -128 ≤ x ∧ x ≤ 127) (h : List ℕ) :
    computePublic k f g = some h ↔ IsUnitPoly (2 ^ k) (zq f) ∧ Poly (2 ^ k) h ∧ negMul (2 ^ k) (NTT.toZ 12289 h) (zq f) = zq g := by
  obtain ⟨f1, f2, f3⟩ := nttS_ok hk f hf (small_of_int8 f bf)
  obtain ⟨g1, g2, g3⟩ := nttS_ok hk g hg (small_of_int8 g bg)
  have hu := nonzero_iff hk f hf (small_of_int8 f bf)
  unfold computePublic
  dsimp only
  by_cases hz : ∃ i < 2 ^ k, (mqNTT k (reduceAll k f))[i]! = 0
  · rw [if_pos ((any_zero _ _).2 hz)]
    refine ⟨fun h => by simp at h, fun ⟨h, _⟩ => ?_⟩
    obtain ⟨i, hi, h0⟩ := hz
    exact absurd h0 (hu.2 h i hi)
  · rw [if_neg (fun c => hz ((any_zero _ _).1 c))]
    have hn : ∀ i < 2 ^ k, (mqNTT k (reduceAll k f))[i]! ≠ 0 := fun i hi h0 => hz ⟨i, hi, h0⟩
    obtain ⟨q1, q2⟩ := quotient_ok hk _ _ (zq g) (zq f) (by simpa using hg) (by simpa using hf) g2 f2 g3 f3 hn
    constructor
    · intro e
      rw [← Option.some.inj e]
      exact ⟨hu.1 hn, q1, q2⟩
    · rintro ⟨u, p, e⟩
      congr 1
      exact poly_eq hk _ _ q1 p (quotient_unique hk _ _ (zq g) (zq f) (by rw [length_toZ, q1.1]) (by rw [length_toZ, p.1]) (by simpa using hg) (by simpa using hf) u q2 e)

theorem signedOf_eq (x : ℕ) (h : x < 12289) : signedOf x = if x < 6144 then (x : ℤ) else (x : ℤ) - 12289 := by
  unfold signedOf
  dsimp only
  have e2 : (12289 >>> 1 : ℕ) = 6144 := by decide
  have hs : sub32 x 6144 < 4294967296 := by unfold sub32; omega
  rw [e2, shift31 _ hs]
  by_cases hh : x < 6144
  · rw [if_neg (by unfold sub32; omega), if_pos hh, show (4294967295 : ℕ) - neg32 1 = 0 by decide, Nat.and_zero]
    unfold sub32 i32
    rw [if_pos (by omega)]; omega
  · rw [if_pos (by unfold sub32; omega), if_neg hh, show (12289 : ℕ) &&& (4294967295 - neg32 0) = 12289 by decide]
    unfold sub32 i32
    rw [if_neg (by omega)]; omega

/-- **C85** (completing a key): `complete_private` returns exactly the `G` with coefficients in `[-127, 127]` and `G*f = g*F` modulo q, and fails exactly when `f` is not
invertible modulo q or there is no such `G`. -/
theorem C85_complete_private (hk : k ≤ 10) (f g F G : List ℤ) (hf : f.length = 2 ^ k) (hg : g.length = 2 ^ k) (hF : F.length = 2 ^ k)
    (bf : ∀ x ∈ f, -128 ≤ x ∧ x ≤ 127) (bg : ∀ x ∈ g, -128 ≤ x ∧ x ≤ 127) (bF : ∀ x ∈ F, -128 ≤ x ∧ x ≤ 127) :
    completePrivate k f g F = some G ↔ IsUnitPoly (2 ^ k) (zq f) ∧ G.length = 2 ^ k ∧ (∀ x ∈ G, -127 ≤ x ∧ x ≤ 127) ∧
      negMul (2 ^ k) (zq G) (zq f) = negMul (2 ^ k) (zq g) (zq F) := by
  obtain ⟨f1, f2, f3⟩ := nttS_ok hk f hf (small_of_int8 f bf)
  obtain ⟨g1, g2, g3⟩ := nttS_ok hk g hg (small_of_int8 g bg)
  obtain ⟨F1, F2, F3⟩ := nttS_ok hk F hF (small_of_int8 F bF)
  have hu := nonzero_iff hk f hf (small_of_int8 f bf)
  obtain ⟨m1, m2, m3⟩ := polyToMonty_ok k _ g2
  obtain ⟨p1, p2, p3⟩ := polyMontymul_ok k _ _ m2 F2
  have p4 : ∀ i < 2 ^ k, (((polyMontymul k (polyToMonty k (mqNTT k (reduceAll k g))) (mqNTT k (reduceAll k F)))[i]! : ℕ) : ZMod 12289) =
      ev (rootC k i) (negMul (2 ^ k) (zq g) (zq F)) := by
    intro i hi
    rw [p3 i hi, m3 i hi, ev_negMul _ (2 ^ k) (rootC_pow k hk i hi) _ _ (by simpa using hg) (by simpa using hF), ← g3 i hi, ← F3 i hi]
    linear_combination (((mqNTT k (reduceAll k g))[i]! : ℕ) : ZMod 12289) * (((mqNTT k (reduceAll k F))[i]! : ℕ) : ZMod 12289) * inv_R
  unfold completePrivate
  dsimp only
  by_cases hz : ∃ i < 2 ^ k, (mqNTT k (reduceAll k f))[i]! = 0
  · rw [if_pos ((any_zero _ _).2 hz)]
    refine ⟨fun h => by simp at h, fun ⟨h, _⟩ => ?_⟩
    obtain ⟨i, hi, h0⟩ := hz
    exact absurd h0 (hu.2 h i hi)
  · rw [if_neg (fun c => hz ((any_zero _ _).1 c))]
    have hn : ∀ i < 2 ^ k, (mqNTT k (reduceAll k f))[i]! ≠ 0 := fun i hi h0 => hz ⟨i, hi, h0⟩
    obtain ⟨q1, q2⟩ := quotient_ok hk _ _ (negMul (2 ^ k) (zq g) (zq F)) (zq f) (by simp) (by simpa using hf) p2 f2 p4 f3 hn
    generalize mqINTT k ((List.range (2 ^ k)).map fun i => u16 (mqDiv (polyMontymul k (polyToMonty k (mqNTT k (reduceAll k g))) (mqNTT k (reduceAll k F)))[i]!
      (mqNTT k (reduceAll k f))[i]!)) = t at q1 q2
    have hsig : ∀ i (hi : i < 2 ^ k), ((List.range (2 ^ k)).map fun u => signedOf t[u]!)[i]'(by simpa using hi) = signedOf t[i]! := fun i hi => by simp
    have hcast : zq ((List.range (2 ^ k)).map fun u => signedOf t[u]!) = NTT.toZ 12289 t := by
      apply List.ext_getElem (by unfold zq; rw [length_toZ, q1.1]; simp)
      intro i h1 h2
      have hi : i < 2 ^ k := by rw [length_toZ, q1.1] at h2; exact h2
      rw [get_toZ]
      have z : (zq ((List.range (2 ^ k)).map fun u => signedOf t[u]!))[i] = ((signedOf t[i]! : ℤ) : ZMod 12289) := by
        rw [get_zq, getElem!_pos _ i (by simpa using hi), hsig i hi]
      rw [z, signedOf_eq _ (q1.canon i)]
      split
      · simp
      · push_cast
        have : (12289 : ZMod 12289) = 0 := by decide +kernel
        rw [this, sub_zero]
    have hall : ((List.range (2 ^ k)).map fun u => signedOf t[u]!).any (fun x => decide (x < -127) || decide (x > 127)) = true ↔
        ¬ ∀ x ∈ (List.range (2 ^ k)).map fun u => signedOf t[u]!, -127 ≤ x ∧ x ≤ 127 := by
      rw [List.any_eq_true]
      constructor
      · rintro ⟨x, hx, h⟩ hc
        have := hc x hx
        rw [Bool.or_eq_true, decide_eq_true_iff, decide_eq_true_iff] at h
        omega
      · intro h
        simp only [not_forall] at h
        obtain ⟨x, hx, h⟩ := h
        refine ⟨x, hx, ?_⟩
        rw [Bool.or_eq_true, decide_eq_true_iff, decide_eq_true_iff]
        omega
    have huniq : ∀ G' : List ℤ, G'.length = 2 ^ k → (∀ x ∈ G', -127 ≤ x ∧ x ≤ 127) → negMul (2 ^ k) (zq G') (zq f) = negMul (2 ^ k) (zq g) (zq F) →
        (List.range (2 ^ k)).map (fun u => signedOf t[u]!) = G' := by
      intro G' l r e
      have e1 := quotient_unique hk _ _ _ (zq f) (by rw [length_toZ, q1.1]) (by simpa using l) (by simp) (by simpa using hf) (hu.1 hn) q2 e
      apply List.ext_getElem (by simp [l])
      intro i h1 h2
      have hi : i < 2 ^ k := by rw [← l]; exact h2
      rw [hsig i hi, signedOf_eq _ (q1.canon i)]
      have e2 := congrArg (fun l => l[i]?) e1
      rw [List.getElem?_eq_getElem (by rw [length_toZ, q1.1]; exact hi), List.getElem?_eq_getElem (by unfold zq; simp; omega)] at e2
      have e3 := Option.some.inj e2
      rw [get_toZ] at e3
      unfold zq at e3
      rw [List.getElem_map] at e3
      have b := r _ (List.getElem_mem h2)
      have c := q1.canon i
      have e4 : (((t[i]! : ℕ) : ℤ) : ZMod 12289) = ((G'[i] : ℤ) : ZMod 12289) := by rw [← e3]; norm_cast
      rw [ZMod.intCast_eq_intCast_iff_dvd_sub] at e4
      obtain ⟨w, hw⟩ := e4
      have : ((12289 : ℕ) : ℤ) = 12289 := by norm_cast
      rw [this] at hw
      split <;> omega
    by_cases hb : ((List.range (2 ^ k)).map fun u => signedOf t[u]!).any (fun x => decide (x < -127) || decide (x > 127)) = true
    · rw [if_pos hb]
      refine ⟨fun h => by simp at h, fun ⟨_, l, r, e⟩ => ?_⟩
      rw [huniq G l r e] at hall hb
      exact absurd r (hall.1 hb)
    · rw [if_neg hb]
      have hr := not_not.1 (fun c => hb (hall.2 c))
      constructor
      · intro e
        rw [← Option.some.inj e]
        exact ⟨hu.1 hn, by simp, hr, by rw [hcast]; exact q2⟩
      · rintro ⟨_, l, r, e⟩
        rw [huniq G l r e]

/-! ## Key recovery -/

theorem recover_ok (hk : k ≤ 10) (c0 : List ℕ) (s1 s2 : List ℤ) (hc : Poly (2 ^ k) c0) (h1 : Vec16 (2 ^ k) s1) (h2 : Vec16 (2 ^ k) s2) :
    ((recoverNtt k c0 s1 s2).2 = true ↔ normSq s1 + normSq s2 ≤ l2bound[k]! ∧ IsUnitPoly (2 ^ k) (zq s2)) ∧
    (Small s1 → Small s2 → IsUnitPoly (2 ^ k) (zq s2) → Poly (2 ^ k) (mqINTT k (recoverNtt k c0 s1 s2).1) ∧
      recoverNtt k c0 s1 s2 = (mqNTT k (mqINTT k (recoverNtt k c0 s1 s2).1), (recoverNtt k c0 s1 s2).2) ∧
      List.zipWith (· + ·) (zq s1) (negMul (2 ^ k) (NTT.toZ 12289 (mqINTT k (recoverNtt k c0 s1 s2).1)) (zq s2)) = NTT.toZ 12289 c0) := by
  constructor
  · show decide (((4294967295 - zeroFlag k (mqNTT k (reduceAll k s2))) &&& neg32 (if isShort k s1 s2 then 1 else 0)) >>> 31 ≠ 0) = true ↔ _
    rw [decide_eq_true_iff]
    by_cases hsh : isShort k s1 s2 = true
    · have hn := (C77_is_short k s1 s2 h1 h2).1 hsh
      rw [if_pos hsh, show neg32 1 = 2 ^ 32 - 1 by decide, Nat.and_two_pow_sub_one_eq_mod]
      have hS2 : Small s2 := by
        intro x hx
        have a := sq_le_normSq s2 x hx
        have b := normSq_nonneg s1
        have c := l2bound_small k
        have d : x * x ≤ 70265242 := by omega
        constructor <;> nlinarith
      obtain ⟨n1, n2, n3⟩ := nttS_ok hk s2 h2.1 hS2
      obtain ⟨z1, z2⟩ := zeroFlag_ok (2 ^ k) _ n2
      have hnz := nonzero_iff hk s2 h2.1 hS2
      have z1' : zeroFlag k (mqNTT k (reduceAll k s2)) < 4294967296 := z1
      rw [Nat.mod_eq_of_lt (by omega), shift31 _ (by omega)]
      have key : (∀ i < 2 ^ k, (mqNTT k (reduceAll k s2))[i]! ≠ 0) ↔ zeroFlag k (mqNTT k (reduceAll k s2)) < 2147483648 := by
        constructor
        · intro h
          by_contra hge
          obtain ⟨i, hi, h0⟩ := z2.1 (not_lt.1 hge)
          exact h i hi h0
        · intro h i hi h0
          exact absurd (z2.2 ⟨i, hi, h0⟩) (not_le.2 h)
      rw [← hnz, key]
      constructor
      · intro h
        refine ⟨hn, ?_⟩
        by_contra hc
        rw [if_pos (by omega)] at h
        exact h rfl
      · rintro ⟨_, h⟩
        rw [if_neg (by omega)]; decide
    · rw [if_neg hsh, show neg32 0 = 0 by decide, Nat.and_zero]
      refine ⟨fun h => absurd rfl h, fun ⟨h, _⟩ => absurd ((C77_is_short k s1 s2 h1 h2).2 h) hsh⟩
  · intro hS1 hS2 hU
    obtain ⟨n1, n2, n3⟩ := nttS_ok hk s2 h2.1 hS2
    have hn := (nonzero_iff hk s2 h2.1 hS2).2 hU
    have hd : ∀ i < 2 ^ k, convSmall s1[i]! = (s1[i]! % 12289).toNat := by
      intro i hi
      rw [getElem!_pos s1 i (by rw [h1.1]; exact hi)]
      obtain ⟨a, b⟩ := hS1 _ (List.getElem_mem (show i < s1.length by rw [h1.1]; exact hi))
      exact convSmall_ok _ a b
    have hdl : ((List.range (2 ^ k)).map fun u => u16 (mqSub c0[u]! (convSmall s1[u]!))).length = 2 ^ k := by simp
    have hdc : Canon ((List.range (2 ^ k)).map fun u => u16 (mqSub c0[u]! (convSmall s1[u]!))) := canon_map _ _ fun i hi => by
      have := mqSub_lt c0[i]! (convSmall s1[i]!) (hc.canon i) (by rw [hd i hi]; exact emod_lt _)
      rw [u16_of_lt _ this]; exact this
    have hdv : NTT.toZ 12289 ((List.range (2 ^ k)).map fun u => u16 (mqSub c0[u]! (convSmall s1[u]!))) = List.zipWith (· - ·) (NTT.toZ 12289 c0) (zq s1) := by
      apply List.ext_getElem (by unfold NTT.toZ zq; simp [hc.1, h1.1])
      intro i a b
      have hi : i < 2 ^ k := by rw [length_toZ, hdl] at a; exact a
      rw [get_toZ, get_map _ _ i hi, List.getElem_zipWith, get_toZ]
      have hlt : convSmall s1[i]! < 12289 := by rw [hd i hi]; exact emod_lt _
      rw [u16_of_lt _ (mqSub_lt _ _ (hc.canon i) hlt), cast_mqSub _ _ (hc.canon i) hlt, hd i hi, cast_emodN]
      unfold zq
      rw [List.getElem_map, getElem!_pos s1 i (by rw [h1.1]; exact hi)]
    obtain ⟨t1, t2⟩ := mqNTT_ok k _ hdl hdc
    have t3 := mqNTT_ev k hk _ hdl hdc
    rw [hdv] at t3
    have lz : (List.zipWith (· - ·) (NTT.toZ 12289 c0) (zq s1)).length = 2 ^ k := by unfold NTT.toZ zq; simp [hc.1, h1.1]
    obtain ⟨q1, q2⟩ := quotient_ok hk _ _ _ (zq s2) lz (by simpa using h2.1) t2 n2 t3 n3 hn
    obtain ⟨d1, d2, _⟩ := div_ok _ _ t2 n2 (2 ^ k)
    have e : (recoverNtt k c0 s1 s2).1 = (List.range (2 ^ k)).map fun u => u16 (mqDiv (mqNTT k ((List.range (2 ^ k)).map fun u => u16 (mqSub c0[u]! (convSmall s1[u]!))))[u]!
      (mqNTT k (reduceAll k s2))[u]!) := rfl
    rw [← e] at q1 q2 d1 d2
    refine ⟨q1, ?_, ?_⟩
    · rw [mqNTT_mqINTT k hk _ d1 d2]
    · rw [q2]
      apply List.ext_getElem (by unfold NTT.toZ zq; simp [hc.1, h1.1])
      intro i a b
      rw [List.getElem_zipWith, List.getElem_zipWith]
      ring

/-- **C85** (key recovery): for every canonical hash and all 16-bit `s1`, `s2`, `verify_recover` and `verify_recover_epervier` return 1 exactly when `(s1, s2)` is short and `s2` is a
unit, and then the key they output is the only canonical `h` with `s1 + h*s2 = c` (the second one outputs its transform). -/
theorem C85_recover (hk : k ≤ 10) (c0 : List ℕ) (s1 s2 : List ℤ) (hc : Poly (2 ^ k) c0) (h1 : Vec16 (2 ^ k) s1) (h2 : Vec16 (2 ^ k) s2) :
    ((verifyRecover k c0 s1 s2).2 = true ↔ normSq s1 + normSq s2 ≤ l2bound[k]! ∧ IsUnitPoly (2 ^ k) (zq s2)) ∧
    ((verifyRecoverEpervier k c0 s1 s2).2 = (verifyRecover k c0 s1 s2).2) ∧
    ((verifyRecover k c0 s1 s2).2 = true → (verifyRecoverEpervier k c0 s1 s2).1 = toNtt k (verifyRecover k c0 s1 s2).1 ∧
      ∀ h, (Poly (2 ^ k) h ∧ List.zipWith (· + ·) (zq s1) (negMul (2 ^ k) (NTT.toZ 12289 h) (zq s2)) = NTT.toZ 12289 c0) ↔ h = (verifyRecover k c0 s1 s2).1) := by
  obtain ⟨r1, r2⟩ := recover_ok hk c0 s1 s2 hc h1 h2
  refine ⟨r1, rfl, fun hok => ?_⟩
  obtain ⟨hn, hu⟩ := r1.1 hok
  have hsm : ∀ x : ℤ, x * x ≤ 70265242 → -12289 ≤ x ∧ x < 12289 := fun x hx => by constructor <;> nlinarith
  have hb := l2bound_small k
  have hS1 : Small s1 := fun x hx => hsm x (by have := sq_le_normSq s1 x hx; have := normSq_nonneg s2; omega)
  have hS2 : Small s2 := fun x hx => hsm x (by have := sq_le_normSq s2 x hx; have := normSq_nonneg s1; omega)
  obtain ⟨q1, q2, q3⟩ := r2 hS1 hS2 hu
  refine ⟨congrArg Prod.fst q2, fun h => ⟨fun ⟨p, e⟩ => ?_, fun e => ?_⟩⟩
  · apply poly_eq hk _ _ p q1
    have lz : (negMul (2 ^ k) (NTT.toZ 12289 h) (zq s2)).length = 2 ^ k := by simp
    have lz' : (negMul (2 ^ k) (NTT.toZ 12289 (mqINTT k (recoverNtt k c0 s1 s2).1)) (zq s2)).length = 2 ^ k := by simp
    refine quotient_unique hk _ _ _ (zq s2) (by rw [length_toZ, p.1]) (by rw [length_toZ, q1.1]) lz' (by simpa using h2.1) hu ?_ rfl
    rw [← e] at q3
    apply List.ext_getElem (by rw [lz, lz'])
    intro i a b
    have e2 := congrArg (fun l => l[i]?) q3
    have hi : i < 2 ^ k := by rw [← lz]; exact a
    rw [List.getElem?_zipWith, List.getElem?_zipWith, List.getElem?_eq_getElem a, List.getElem?_eq_getElem b,
      List.getElem?_eq_getElem (by unfold zq; simp [h1.1]; exact hi)] at e2
    exact (add_left_cancel (Option.some.inj e2)).symm
  · rw [e]; exact ⟨q1, q3⟩

/-! ## Hints and zero counts -/

theorem hint_fold (n : ℕ) (t : List ℕ) (w : ℕ → ZMod 12289) (h : Canon t) (e : ∀ i < n, ((t[i]! : ℕ) : ZMod 12289) = w i * 65536) :
    (List.range n).foldl (fun hint u => u16 (mqMontymul hint t[u]!)) 1 < 12289 ∧
    (((List.range n).foldl (fun hint u => u16 (mqMontymul hint t[u]!)) 1 : ℕ) : ZMod 12289) = ∏ i ∈ Finset.range n, w i := by
  induction n with
  | zero => exact ⟨by norm_num, by simp⟩
  | succ n ih =>
    obtain ⟨i1, i2⟩ := ih (fun i hi => e i (by omega))
    rw [List.range_succ, List.foldl_append, List.foldl_cons, List.foldl_nil, Finset.prod_range_succ, ← i2]
    generalize (List.range n).foldl (fun hint u => u16 (mqMontymul hint t[u]!)) 1 = r at i1
    rw [u16_montymul _ _ i1 (h n)]
    refine ⟨mqMontymul_lt _ _ i1 (h n), ?_⟩
    rw [cast_montymul _ _ i1 (h n), e n (by omega)]
    linear_combination (r : ZMod 12289) * w n * inv_R

theorem hint_ok (hk : k ≤ 10) (s2 : List ℤ) (hs : s2.length = 2 ^ k) (h : Small s2) : hintEpervier k s2 < 12289 ∧
    ((∏ i ∈ Finset.range (2 ^ k), ev (rootC k i) (zq s2) ≠ 0) → (hintEpervier k s2 : ZMod 12289) * ∏ i ∈ Finset.range (2 ^ k), ev (rootC k i) (zq s2) = 1) ∧
    ((∏ i ∈ Finset.range (2 ^ k), ev (rootC k i) (zq s2) = 0) → hintEpervier k s2 = 0) := by
  obtain ⟨n1, n2, n3⟩ := nttS_ok hk s2 hs h
  obtain ⟨m1, m2, m3⟩ := polyToMonty_ok k _ n2
  obtain ⟨f1, f2⟩ := hint_fold (2 ^ k) _ (fun i => ev (rootC k i) (zq s2)) m2 (fun i hi => by rw [m3 i hi, n3 i hi])
  have e : hintEpervier k s2 = u16 (mqDiv 1 ((List.range (2 ^ k)).foldl (fun hint u => u16 (mqMontymul hint (polyToMonty k (mqNTT k (reduceAll k s2)))[u]!)) 1)) := rfl
  rw [← f2, e]
  generalize (List.range (2 ^ k)).foldl (fun hint u => u16 (mqMontymul hint (polyToMonty k (mqNTT k (reduceAll k s2)))[u]!)) 1 = r at f1
  have one : (1 : ℕ) < 12289 := by norm_num
  obtain ⟨d1, d2, d3⟩ := C76_div 1 r one f1
  rw [u16_of_lt _ d1]
  refine ⟨d1, fun hr => ?_, fun hr => d3 ((cast_zero_iff r f1).1 hr)⟩
  have := mqDiv_mul 1 r one f1 (Nat.pos_of_ne_zero fun h0 => hr (by rw [h0]; simp))
  rw [this]; simp

/-- **C85** (hint): for a signature vector with a unit `s2` the hint of `hint_epervier` is the inverse of the product of all values of `s2`; for a non-unit it is 0. -/
theorem C85_hint (hk : k ≤ 10) (s2 : List ℤ) (hs : s2.length = 2 ^ k) (h : Small s2) : hintEpervier k s2 < 12289 ∧
    (IsUnitPoly (2 ^ k) (zq s2) → (hintEpervier k s2 : ZMod 12289) * ∏ i ∈ Finset.range (2 ^ k), ev (rootC k i) (zq s2) = 1) ∧
    (¬ IsUnitPoly (2 ^ k) (zq s2) → hintEpervier k s2 = 0) := by
  obtain ⟨a, b, c⟩ := hint_ok hk s2 hs h
  have hu := unit_ev hk (zq s2) (by simpa using hs)
  refine ⟨a, fun hU => b ?_, fun hU => c ?_⟩
  · rw [Finset.prod_ne_zero_iff]
    exact fun i hi => hu.1 hU i (Finset.mem_range.1 hi)
  · rw [hu] at hU
    simp only [not_forall, not_not] at hU
    obtain ⟨i, hi, h0⟩ := hU
    exact Finset.prod_eq_zero (Finset.mem_range.2 hi) h0

/-- The evaluation points of size 512 are the contract's. -/
theorem rootC_root (i : ℕ) (hi : i < 512) : rootC 9 i = root i := by
  rw [← node_root i hi]
  unfold rootC
  have e : ∀ j < 512, psiC j = chunk fwWords j := by
    intro j hj
    have h1 := (C76_tables.2 j hj).1
    obtain ⟨f1, f2, _⟩ := C34_forward_tables j hj
    unfold psiC
    rw [h1, f1, f2, Nat.mod_mul_mod, mul_assoc, show 65536 * 2304 = 1 + 12289 * 12287 by norm_num, mul_add, mul_one, ← mul_assoc, mul_comm _ 12289, mul_assoc,
      Nat.add_mul_mod_self_left, Nat.mod_mod]
  have hj : (512 + i) / 2 < 512 := by omega
  have e2 : (2 : ℕ) ^ 9 + i = 512 + i := by norm_num
  rw [e2]
  unfold node
  beta_reduce
  rw [e _ hj]

/-- **C85** (hint, 512): it is the hint the contract's recovery checks: `hint * Π s2(root i) = 1`. -/
theorem C85_hint_contract (s2 : List ℕ) (t : List ℤ) (ht : t.length = 512) (hsm : Small t) (he : zq t = NTT.toZ 12289 s2)
    (hu : IsUnitPoly 512 (NTT.toZ 12289 s2)) :
    (hintEpervier 9 t : ZMod 12289) * ∏ j ∈ Finset.range 512, Epervier.value s2 j = 1 := by
  have h := (C85_hint (k := 9) (by norm_num) t ht hsm).2.1 (by rw [he]; exact hu)
  have e512 : (2 : ℕ) ^ 9 = 512 := by norm_num
  rw [e512] at h
  have e : ∏ j ∈ Finset.range 512, Epervier.value s2 j = ∏ i ∈ Finset.range 512, ev (rootC 9 i) (zq t) :=
    Finset.prod_congr rfl fun j hj => by rw [Epervier.value_ev, rootC_root j (Finset.mem_range.1 hj), he]
  rw [e]
  exact h

/-- **C85** (`count_nttzero`): the number of evaluation points at which the vector vanishes. -/
theorem C85_count (hk : k ≤ 10) (s : List ℤ) (hs : s.length = 2 ^ k) (h : Small s) :
    countNttzero k s = ((Finset.range (2 ^ k)).filter fun i => ev (rootC k i) (zq s) = 0).card := by
  obtain ⟨n1, n2, n3⟩ := nttS_ok hk s hs h
  unfold countNttzero
  dsimp only
  have key : ∀ m ≤ 2 ^ k, (List.range m).foldl (fun r u => add32 r (sub32 (mqNTT k (reduceAll k s))[u]! 1 >>> 31)) 0 =
      ((Finset.range m).filter fun i => ev (rootC k i) (zq s) = 0).card := by
    intro m
    induction m with
    | zero => intro _; simp
    | succ m ih =>
      intro hm
      rw [List.range_succ, List.foldl_append, List.foldl_cons, List.foldl_nil, ih (by omega), Finset.range_add_one, Finset.filter_insert]
      have hcard : ((Finset.range m).filter fun i => ev (rootC k i) (zq s) = 0).card ≤ m := le_trans (Finset.card_filter_le _ _) (by simp)
      have h1024 : 2 ^ k ≤ 1024 := le_trans (Nat.pow_le_pow_right (by norm_num) hk) (by norm_num)
      have e := sub32_one _ (n2 m)
      have z := cast_zero_iff _ (n2 m)
      rw [n3 m (by omega)] at z
      have hlt := n2 m
      by_cases h0 : (mqNTT k (reduceAll k s))[m]! = 0
      · rw [if_pos (z.2 h0), Finset.card_insert_of_notMem (by simp), e, if_pos h0]
        unfold add32
        rw [show 4294967295 >>> 31 = 1 by decide]
        omega
      · rw [if_neg (fun c => h0 (z.1 c)), e, if_neg h0, shift31 _ (by omega), if_pos (by omega)]
        unfold add32
        omega
  exact key _ le_rfl

/-- Beside C85: a unit and a non-unit of dimension 2. -/
example : IsUnitPoly 2 (zq [1, 0]) ∧ ¬ IsUnitPoly 2 (zq [0, 0]) := by
  refine ⟨⟨[1, 0], rfl, by decide +kernel⟩, ?_⟩
  rintro ⟨i, hi, h⟩
  have e : (zq [0, 0]) = [0, 0] := by decide +kernel
  rw [e] at h
  match i, hi with
  | [a, b], _ =>
    have h2 := congrArg (fun l => l.getD 0 0) h
    simp [negMul, negCoeff, one, Finset.sum_range_succ, List.range_succ] at h2
example : isInvertible 1 [1, 0] = true ∧ computePublic 1 [1, 0] [3, -4] = some [3, 12285] ∧ completePrivate 1 [1, 0] [3, -4] [2, 0] = some [6, -8] ∧
    (verifyRecover 1 [5, 7] [1, 2] [1, 0]) = ([4, 5], true) := by decide +kernel

end Verif.CRef
