import Verif.Contract.Lemmas
import Mathlib.FieldTheory.Finite.Basic

/-! Solving the verification equation of the contract: used for the forgeries of C30. -/

namespace Verif.Contract

open Verif Verif.Packing Verif.NTT Verif.Ring Verif.Falcon

/-- The inverse modulo 12289. -/
def qinv (x : ℕ) : ℕ := x ^ 12287 % 12289

/-- The quotient `t / h` computed through the transform, where `ntth` holds the transform of `h`. -/
def forgeFields (ntth t : List ℕ) : List ℕ := inv512 (vecMul qF 512 (fw512 t) ((fields ntth).map qinv))

/-- The same, packed into 32 words. -/
def forge (ntth t : List ℕ) : List ℕ := solCompact (asMem (forgeFields ntth t) (fun _ => 0))

theorem fermat (x : ℕ) (h : x % 12289 ≠ 0) : ((qinv x : ℕ) : ZMod 12289) * (x : ZMod 12289) = 1 := by
  have : Fact (Nat.Prime 12289) := ⟨prime_q⟩
  unfold qinv
  rw [ZMod.natCast_mod, Nat.cast_pow, ← pow_succ]
  apply ZMod.pow_card_sub_one_eq_one
  intro h0
  rw [ZMod.natCast_eq_zero_iff] at h0
  omega

attribute [irreducible] qinv
attribute [local irreducible] fields

theorem get_map_qinv (l : List ℕ) (x : ℕ) (h : x < l.length) : (l.map qinv)[x]! = qinv l[x] := by
  rw [getElem!_pos (l.map qinv) x (by rw [List.length_map]; exact h), List.getElem_map]

theorem vecMul_poly512 (a b : List ℕ) : Poly512 (vecMul qF 512 a b) :=
  ⟨length_vecMul _ _ _ _, mem_lt_of_get (length_vecMul _ _ _ _) (vecMul_lt (by decide) _ _ _)⟩

theorem forgeFields_spec (ntth h t : List ℕ) (hk : HoldsKey ntth h) (hu : ∀ x ∈ fields ntth, x % 12289 ≠ 0) (ht : Poly512 t) :
    Poly512 (forgeFields ntth t) ∧ IsProduct 12289 (forgeFields ntth t) h t := by
  have hv := vecMul_poly512 (fw512 t) ((fields ntth).map qinv)
  have hp := C32_inverse_reduced _ hv
  refine ⟨hp, ?_⟩
  have e := halfmul512 (forgeFields ntth t) (fields ntth) h hp.1 hk.1.1 hk.2
  have ef := C32_forward_inverse _ hv
  rw [show fw512 (forgeFields ntth t) = _ from ef] at e
  have : vecMul qF 512 (vecMul qF 512 (fw512 t) ((fields ntth).map qinv)) (fields ntth) = fw512 t := by
    have p1 := vecMul_poly512 (vecMul qF 512 (fw512 t) ((fields ntth).map qinv)) (fields ntth)
    have p2 := poly512_fw t ht.1
    apply list_eq_of_res (q := 12289) _ _ (by rw [p1.1, p2.1])
    · rw [p1.1]; exact get_lt_of_mem p1.1 p1.2
    · rw [p1.1]; exact get_lt_of_mem p2.1 p2.2
    · rw [p1.1]
      intro x hx
      show res qF _ x = _
      rw [res_vecMul (by decide) _ _ _ _ hx, res_vecMul (by decide) _ _ _ _ hx, mul_assoc]
      have hx' : x < (fields ntth).length := by rw [length_fields]; exact hx
      have := fermat ((fields ntth)[x]) (hu _ (List.getElem_mem hx'))
      unfold res
      rw [get_map_qinv _ x hx', getElem!_pos (fields ntth) x hx']
      refine Eq.trans (congrArg _ this) ?_
      exact mul_one (M := ZMod 12289) _
  rw [this, C32_round_trip t ht] at e
  exact e

theorem fields_solCompact (a : List ℕ) (hl : a.length = 512) (h : ∀ x ∈ a, x < 65536) :
    (solCompact (asMem a (fun _ => 0))).length = 32 ∧ (∀ w ∈ solCompact (asMem a (fun _ => 0)), w < 2 ^ 256) ∧ fields (solCompact (asMem a (fun _ => 0))) = a := by
  have hc : (solCompact (asMem a (fun _ => 0))).length = 32 := by
    apply length_solCompact
    intro i hi
    rw [asMem_lt _ _ _ (by omega)]
    exact h _ (List.getElem_mem _)
  refine ⟨hc, ?_, ?_⟩
  · intro w hw
    rw [solCompact_eq _ (fun i hi => by rw [asMem_lt _ _ _ (by omega)]; exact h _ (List.getElem_mem _))] at hw
    obtain ⟨k, hk, rfl⟩ := List.mem_map.1 hw
    have hk := List.mem_range.1 hk
    refine lt_of_lt_of_eq (dig_lt _ 16 ?_) (by norm_num)
    intro j hj
    rw [asMem_lt _ _ _ (by omega)]
    exact h _ (List.getElem_mem _)
  · rw [← fields_eq _ hc]
    exact solExpand_solCompact a _ _ hl h

theorem le_normSq (l : List ℤ) (x : ℤ) (h : x ∈ l) : x * x ≤ normSq l := by
  unfold normSq
  have : ∀ l : List ℤ, 0 ≤ (l.map fun c => c * c).sum := by
    intro l
    apply List.sum_nonneg
    intro y hy
    obtain ⟨z, _, rfl⟩ := List.mem_map.1 hy
    exact mul_self_nonneg z
  induction l with
  | nil => cases h
  | cons a l ih =>
    rw [List.map_cons, List.sum_cons]
    rcases List.mem_cons.1 h with rfl | h
    · have := this l; linarith
    · have := ih h; have := mul_self_nonneg a; linarith

/-- The monomial `x^511`. -/
def x511 : List ℕ := List.replicate 511 0 ++ [1]

theorem x511_poly : Poly512 x511 := by
  refine ⟨by unfold x511; rw [List.length_append, List.length_replicate]; rfl, ?_⟩
  intro x hx
  unfold x511 at hx
  rcases List.mem_append.1 hx with h | h
  · rw [List.eq_of_mem_replicate h]; norm_num
  · rw [List.mem_singleton.1 h]; norm_num

theorem x511_get (i : ℕ) (hi : i < 511) : x511[i]! = 0 := by
  unfold x511
  rw [getElem!_pos _ i (by rw [List.length_append, List.length_replicate]; omega), List.getElem_append_left (by rw [List.length_replicate]; exact hi), List.getElem_replicate]

theorem toZ_get (a : List ℕ) (i : ℕ) (hi : i < a.length) : (toZ 12289 a)[i]'(by rw [length_toZ]; exact hi) = ((a[i]! : ℕ) : ZMod 12289) := by
  rw [getElem!_pos a i hi]
  simp [NTT.toZ]

/-- For every key with invertible transform, every target and every chosen residue `v`, there are a position `j` and a polynomial `s` whose product with `h` agrees with the target in the
first 511 coefficients, and whose coefficient `j` is `v`. -/
theorem steer (ntth h t : List ℕ) (hk : HoldsKey ntth h) (hu : ∀ x ∈ fields ntth, x % 12289 ≠ 0) (ht : Poly512 t) (v : ℕ) (hv : v < 12289) :
    ∃ s p, Poly512 s ∧ v ∈ s ∧ IsProduct 12289 s h p ∧ ∀ i < 511, p[i]! = t[i]! := by
  have : Fact (Nat.Prime 12289) := ⟨prime_q⟩
  obtain ⟨a1, a2⟩ := forgeFields_spec ntth h t hk hu ht
  obtain ⟨u1, u2⟩ := forgeFields_spec ntth h x511 hk hu x511_poly
  obtain ⟨a, ha⟩ : ∃ a, a = forgeFields ntth t := ⟨_, rfl⟩
  obtain ⟨u, hu'⟩ : ∃ u, u = forgeFields ntth x511 := ⟨_, rfl⟩
  rw [← ha] at a1 a2
  rw [← hu'] at u1 u2
  have hj : ∃ j, j < 512 ∧ ((u[j]! : ℕ) : ZMod 12289) ≠ 0 := by
    by_contra hc
    push Not at hc
    have e := u2.2.2
    have : ev (rt (ZMod 12289) 512) (toZ 12289 u) = 0 := by
      unfold ev
      apply Finset.sum_eq_zero
      intro i hi
      have hi := Finset.mem_range.1 hi
      rw [length_toZ, u1.1] at hi
      rw [at'_lt _ _ (by rw [length_toZ, u1.1]; exact hi), toZ_get u i (by rw [u1.1]; exact hi), hc i hi, map_zero, zero_mul]
    have e2 : ev (rt (ZMod 12289) 512) (toZ 12289 x511) = 0 := by
      rw [e, u1.1, ev_negMul _ 512 (rt_pow 512) _ _ (by rw [length_toZ, u1.1]) (by rw [length_toZ, hk.1.1]), this, zero_mul]
    have e3 : toZ 12289 x511 = List.replicate 512 0 := by
      apply list_eq_of_ev 512 (by norm_num) _ _ (by rw [length_toZ, x511_poly.1]) (List.length_replicate ..)
      rw [e2, ev_replicate_zero]
    have e4 := toZ_get x511 511 (by rw [x511_poly.1]; norm_num)
    simp only [e3] at e4
    have e5 : ∀ (m : ℕ) (hm : 511 < (List.replicate m (0 : ZMod 12289)).length), (List.replicate m (0 : ZMod 12289))[511] = 0 := fun m hm => List.getElem_replicate hm
    rw [e5] at e4
    have : x511[511]! = 1 := by
      have key : ∀ m : ℕ, (List.replicate m 0 ++ [1])[m]! = 1 := by intro m; simp
      exact key 511
    rw [this] at e4
    norm_num at e4
  obtain ⟨j, hj, hj0⟩ := hj
  obtain ⟨k, hkk⟩ : ∃ k : ZMod 12289, k = ((v : ZMod 12289) - (a[j]! : ℕ)) * ((u[j]! : ℕ) : ZMod 12289)⁻¹ := ⟨_, rfl⟩
  obtain ⟨s, hs⟩ : ∃ s : List ℕ, s = (List.range 512).map fun i => (((a[i]! : ℕ) : ZMod 12289) + k * (u[i]! : ℕ)).val := ⟨_, rfl⟩
  have sl : s.length = 512 := by rw [hs, List.length_map, List.length_range]
  have slt : ∀ x ∈ s, x < 12289 := by
    intro x hx
    rw [hs] at hx
    obtain ⟨i, _, rfl⟩ := List.mem_map.1 hx
    exact ZMod.val_lt _
  have sget : ∀ i < 512, ((s[i]! : ℕ) : ZMod 12289) = ((a[i]! : ℕ) : ZMod 12289) + k * (u[i]! : ℕ) := by
    intro i hi
    rw [getElem!_pos s i (by omega)]
    simp only [hs, List.getElem_map, List.getElem_range]
    rw [ZMod.natCast_zmod_val]
  have hp := halfmul512 s (fields ntth) h sl hk.1.1 hk.2
  refine ⟨s, _, ⟨sl, slt⟩, ?_, hp, ?_⟩
  · have : s[j]! = v := by
      have e := sget j hj
      rw [hkk, mul_assoc, inv_mul_cancel₀ hj0, mul_one, add_sub_cancel, ZMod.natCast_eq_natCast_iff] at e
      exact Nat.ModEq.eq_of_lt_of_lt e (get_lt_of_mem sl slt j hj) hv
    rw [← this, getElem!_pos s j (by omega)]
    exact List.getElem_mem _
  · obtain ⟨p, hpp⟩ : ∃ p, p = inv512 (vecMul qF 512 (fw512 s) (fields ntth)) := ⟨_, rfl⟩
    rw [← hpp] at hp ⊢
    have pl : p.length = 512 := by rw [hp.1, sl]
    have evs : ∀ (b : List ℕ), b.length = 512 → ∀ c d : List ℕ, c.length = 512 → d.length = 512 →
        (∀ i < 512, ((b[i]! : ℕ) : ZMod 12289) = ((c[i]! : ℕ) : ZMod 12289) + k * (d[i]! : ℕ)) →
        ev (rt (ZMod 12289) 512) (toZ 12289 b) = ev (rt (ZMod 12289) 512) (toZ 12289 c) + algebraMap _ _ k * ev (rt (ZMod 12289) 512) (toZ 12289 d) := by
      intro b hb c d hc hd h
      unfold ev
      rw [length_toZ, length_toZ, length_toZ, hb, hc, hd, Finset.mul_sum, ← Finset.sum_add_distrib]
      apply Finset.sum_congr rfl
      intro i hi
      have hi := Finset.mem_range.1 hi
      rw [at'_lt _ _ (by rw [length_toZ, hb]; exact hi), toZ_get b i (by omega), at'_lt _ _ (by rw [length_toZ, hc]; exact hi), toZ_get c i (by omega),
        at'_lt _ _ (by rw [length_toZ, hd]; exact hi), toZ_get d i (by omega), h i hi, map_add, map_mul]
      ring
    obtain ⟨w, hw⟩ : ∃ w : List ℕ, w = (List.range 512).map fun i => (((t[i]! : ℕ) : ZMod 12289) + k * (x511[i]! : ℕ)).val := ⟨_, rfl⟩
    have wl : w.length = 512 := by rw [hw, List.length_map, List.length_range]
    have wget : ∀ i < 512, ((w[i]! : ℕ) : ZMod 12289) = ((t[i]! : ℕ) : ZMod 12289) + k * (x511[i]! : ℕ) := by
      intro i hi
      rw [getElem!_pos w i (by omega)]
      simp only [hw, List.getElem_map, List.getElem_range]
      rw [ZMod.natCast_zmod_val]
    have eq : toZ 12289 p = toZ 12289 w := by
      apply list_eq_of_ev 512 (by norm_num) _ _ (by rw [length_toZ, pl]) (by rw [length_toZ, wl])
      rw [evs w wl t x511 ht.1 x511_poly.1 wget, hp.2.2, sl, ev_negMul _ 512 (rt_pow 512) _ _ (by rw [length_toZ, sl]) (by rw [length_toZ, hk.1.1]),
        evs s sl a u a1.1 u1.1 sget, add_mul, mul_assoc,
        ← ev_negMul _ 512 (rt_pow 512) (toZ 12289 a) _ (by rw [length_toZ, a1.1]) (by rw [length_toZ, hk.1.1]),
        ← ev_negMul _ 512 (rt_pow 512) (toZ 12289 u) _ (by rw [length_toZ, u1.1]) (by rw [length_toZ, hk.1.1])]
      have e1 := a2.2.2
      have e2 := u2.2.2
      rw [a1.1] at e1
      rw [u1.1] at e2
      rw [← e1, ← e2]
    intro i hi
    have e := toZ_get p i (by omega)
    simp only [eq] at e
    rw [toZ_get w i (by omega), wget i (by omega), x511_get i hi, Nat.cast_zero, mul_zero, add_zero, ZMod.natCast_eq_natCast_iff] at e
    exact (Nat.ModEq.eq_of_lt_of_lt e (get_lt_of_mem ht.1 ht.2 i (by omega)) (get_lt_of_mem pl hp.2.1 i (by omega))).symm

end Verif.Contract
