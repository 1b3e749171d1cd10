import Verif.FFT.Sampling

namespace Verif.FFT

open Finset

set_option linter.unusedSectionVars false

variable {K : Type} [Field K] [StarRing K] [DecidableEq K]

/-- `T` is the subtree that `ffldl_fft` builds from the diagonal entry `D` of length `2^(k+1)`. -/
def Sub (R : Nat → Nat → K) : Nat → List K → Tree K → Prop
  | 0, D, T => T = .leaf D
  | _ + 1, D, T => ∃ d0 d1 fuel, splitFft R D = .ok (d0, d1) ∧ ffldlFftLoop R fuel ⟨d0, d1, adjFft d1, d0⟩ = .ok T

/-- Pointwise difference of two transforms. -/
def dif (R : Nat → Nat → K) (k : Nat) (x : List K) (z : List Int) : List K := vec (2 ^ k) fun i => (tr R k x).getD i 0 - (tr R k (toK z)).getD i 0

/-- What is claimed about the subtree of one diagonal entry. -/
def BranchOk {St : Type} (R : Nat → Nat → K) (S : LeafSampler St K) (sq : K → K) (sigma : K) (k : Nat) : Prop :=
  ∀ (fuel : Nat) (D : List K) (T : Tree K) (u v : List K) (st : St) (log : List (K × K × Int)), D.length = 2 ^ (k + 1) → SelfConj R D → (∀ i < 2 ^ (k + 1), star (D.getD i 0) = D.getD i 0) →
    Sub R k D T → LeafSq sq T → u.length = 2 ^ k → v.length = 2 ^ k → Real' u → Real' v → k < fuel →
    ∃ (z0 z1 : List Int) (st' : St) (log' : List (K × K × Int)), z0.length = 2 ^ k ∧ z1.length = 2 ^ k ∧
      ffSamplingLoop R (logged S) true fuel (tr R k u) (tr R k v) (normalizeTree sq sigma T) (st, log) = .ok ((tr R k (toK z0), tr R k (toK z1)), (st', log ++ log')) ∧ log'.length = 2 ^ (k + 1) ∧
      ∑ i ∈ range (2 ^ (k + 1)), D.getD i 0 * ((dif R (k + 1) (interleave u v) (interleaveZ z0 z1)).getD i 0 * star ((dif R (k + 1) (interleave u v) (interleaveZ z0 z1)).getD i 0)) =
        2 ^ (k + 1) * (sigma ^ 2 * logSum log')

/-- What is claimed about a tree. -/
def NodeOk {St : Type} (R : Nat → Nat → K) (S : LeafSampler St K) (sq : K → K) (sigma : K) (k : Nat) : Prop :=
  ∀ (fuel fuelT : Nat) (G : Mat K) (T : Tree K) (u v : List K) (st : St) (log : List (K × K × Int)), Good R k G → ffldlFftLoop R fuelT G = .ok T → LeafSq sq T →
    u.length = 2 ^ k → v.length = 2 ^ k → Real' u → Real' v → k < fuel →
    ∃ (z0 z1 : List Int) (st' : St) (log' : List (K × K × Int)), z0.length = 2 ^ k ∧ z1.length = 2 ^ k ∧
      ffSamplingLoop R (logged S) true fuel (tr R k u) (tr R k v) (normalizeTree sq sigma T) (st, log) = .ok ((tr R k (toK z0), tr R k (toK z1)), (st', log ++ log')) ∧ log'.length = 2 ^ (k + 1) ∧
      ∑ i ∈ range (2 ^ k), quad G (dif R k u z0) (dif R k v z1) i = 2 ^ k * (sigma ^ 2 * logSum log')

section Roots
variable {R : Nat → Nat → K} {I : K} (hR : RootLaw R I)
include hR

theorem getD_dif {k i : Nat} (h : i < 2 ^ k) (x : List K) (z : List Int) : (dif R k x z).getD i 0 = evalAt (R (2 ^ k) i) x - evalAt (R (2 ^ k) i) (toK z) := by
  unfold dif tr
  rw [getD_vec_lt h, getD_vec_lt h, getD_vec_lt h]

theorem re_of_real {x : K} (h : star x = x) : re x = x := by
  unfold re
  have := hR.two
  rw [h]; field_simp; ring

theorem branch_zero {St : Type} (S : LeafSampler St K) (sq : K → K) {sigma : K} (hs : sigma ≠ 0) : BranchOk R S sq sigma 0 := by
  intro fuel D T u v st log hD sc rD hT hL hu hv ru rv hf
  obtain ⟨fuel, rfl⟩ : ∃ j, fuel = j + 1 := ⟨fuel - 1, by omega⟩
  subst hT
  obtain ⟨hl2, hq, hq0⟩ := hL
  have hD2 : D.length = 2 := hD
  rw [eq_singleton hu, eq_singleton hv]
  have r0 := ru.getD 0
  have r1 := rv.getD 0
  generalize u.getD 0 0 = c0 at *
  generalize v.getD 0 0 = c1 at *
  have hD10 : D.getD 1 0 = D.getD 0 0 := by
    rw [sc 0 1 (by omega) (by omega), rD 0 (by norm_num)]
    rw [hD2, hR.one 0 (by omega), hR.one 1 (by omega), if_pos rfl, if_neg (by omega), hR.starI]
  have hTl : normalizeTree sq sigma (.leaf D) = .leaf [sigma / sq (re (D.getD 0 0)), 0] := by
    obtain ⟨a, b, rfl⟩ : ∃ a b, D = [a, b] := ⟨_, _, eq_vec' hD2⟩
    rfl
  rw [hTl]
  unfold ffSamplingLoop
  rw [if_neg (by rw [length_tr]; norm_num), if_pos (by rw [length_tr]; norm_num), if_pos rfl]
  simp only [tr_zero, List.getD_cons_zero, re_of_real hR r0, re_of_real hR r1]
  obtain ⟨sl, hsl⟩ : ∃ x, x = sigma / sq (re (D.getD 0 0)) := ⟨_, rfl⟩
  rw [← hsl]
  refine ⟨[(S st c0 (some sl)).1], [(S (S st c0 (some sl)).2 c1 (some sl)).1], (S (S st c0 (some sl)).2 c1 (some sl)).2,
    [(c0, sl, (S st c0 (some sl)).1), (c1, sl, (S (S st c0 (some sl)).2 c1 (some sl)).1)], rfl, rfl, ?_, ?_, ?_⟩
  · simp only [toK, List.map_cons, List.map_nil, tr_zero, logged, List.append_assoc, List.cons_append, List.nil_append]
    rfl
  · rfl
  · have h := hR.sqI
    have hI := hR.starI
    show ∑ i ∈ range 2, _ = _
    rw [sum_range_succ, sum_range_succ, sum_range_zero, zero_add, hD10, getD_dif hR (by norm_num), getD_dif hR (by norm_num)]
    rw [← interleave_toK]
    have hil : ∀ a b : K, interleave [a] [b] = [a, b] := fun a b => by simp [interleave, vec, List.range_succ]
    simp only [toK, List.map_cons, List.map_nil, hil]
    show D.getD 0 0 * ((evalAt (R 2 0) _ - evalAt (R 2 0) _) * star (evalAt (R 2 0) _ - evalAt (R 2 0) _)) + D.getD 0 0 * ((evalAt (R 2 1) _ - evalAt (R 2 1) _) * star (evalAt (R 2 1) _ - evalAt (R 2 1) _)) = _
    rw [hR.one 0 (by omega), hR.one 1 (by omega), if_pos rfl, if_neg (by omega)]
    simp only [evalAt, List.length_cons, List.length_nil, sum_range_succ, range_zero, sum_empty, List.getD_cons_zero, List.getD_cons_succ, pow_zero, pow_one, zero_add, mul_one,
      star_sub, star_add, star_mul', star_neg, hI, r0, r1, star_intCast, logSum, List.map_cons, List.map_nil, List.sum_cons, List.sum_nil, add_zero]
    conv_lhs => rw [← hq]
    rw [hsl]
    generalize sq (re (D.getD 0 0)) = s at *
    have e1 : ∀ x y : K, sigma ^ 2 * ((x / (sigma / s)) ^ 2 + (y / (sigma / s)) ^ 2) = s * s * (x ^ 2 + y ^ 2) := by
      intro x y; field_simp
    rw [e1]
    ring_nf
    rw [show I ^ 2 = -1 by rw [pow_two, h]]
    ring

theorem selfConj_vec_of {k : Nat} {φ : Nat → K} (h : ∀ i j, i < 2 ^ k → j < 2 ^ k → R (2 ^ k) j = star (R (2 ^ k) i) → φ j = star (φ i)) : SelfConj R (vec (2 ^ k) φ) := by
  intro i j hi hj hij
  rw [length_vec] at hi hj hij
  rw [getD_vec_lt hi, getD_vec_lt hj, h i j hi hj hij]

theorem ffldl_inv {k fuelT : Nat} {G : Mat K} {T : Tree K} (hk : k + 1 ≤ 10) (g : Good R (k + 1) G) (hT : ffldlFftLoop R fuelT G = .ok T) :
    (∀ i < 2 ^ (k + 1), G.a.getD i 0 ≠ 0) ∧ ∃ T0 T1, T = .node (vec (2 ^ (k + 1)) fun i => G.c.getD i 0 / G.a.getD i 0) T0 T1 ∧ Sub R k G.a T0 ∧
      Sub R k (vec (2 ^ (k + 1)) fun i => G.d.getD i 0 - G.c.getD i 0 / G.a.getD i 0 * star (G.c.getD i 0 / G.a.getD i 0) * G.a.getD i 0) T1 := by
  rcases fuelT with _ | fuelT
  · exact absurd hT (by simp [ffldlFftLoop])
  have h0 : ∀ i < 2 ^ (k + 1), G.a.getD i 0 ≠ 0 := by
    intro i hi h
    unfold ffldlFftLoop at hT
    rw [ldlFft_zero g.len hi h] at hT
    exact absurd hT (by simp)
  refine ⟨h0, ?_⟩
  unfold ffldlFftLoop at hT
  rw [ldlFft_eq g.len h0] at hT
  dsimp only at hT
  rw [g.len.1] at hT
  rcases Nat.eq_zero_or_pos k with rfl | hk0
  · rw [if_neg (by norm_num), if_pos (by norm_num)] at hT
    injection hT with hT
    exact ⟨_, _, hT.symm, rfl, rfl⟩
  · obtain ⟨k, rfl⟩ : ∃ j, k = j + 1 := ⟨k - 1, by omega⟩
    have e := pow_succ 2 (k + 1)
    have hp : 2 ≤ 2 ^ (k + 1) := by
      calc 2 = 2 ^ 1 := rfl
        _ ≤ 2 ^ (k + 1) := Nat.pow_le_pow_right (by omega) (by omega)
    rw [if_pos (by omega)] at hT
    rw [splitFft_eq R (k := k + 1 + 1) (by omega) hk g.len.1] at hT
    dsimp only at hT
    rw [splitFft_eq R (k := k + 1 + 1) (by omega) hk (length_vec _ _)] at hT
    dsimp only at hT
    split at hT
    · exact absurd hT (by simp)
    · rename_i T0 hT0
      split at hT
      · exact absurd hT (by simp)
      · rename_i T1 hT1
        injection hT with hT
        exact ⟨T0, T1, hT.symm, ⟨_, _, _, splitFft_eq R (k := k + 1 + 1) (by omega) hk g.len.1, hT0⟩, ⟨_, _, _, splitFft_eq R (k := k + 1 + 1) (by omega) hk (length_vec _ _), hT1⟩⟩

theorem node_of_branch {St : Type} (S : LeafSampler St K) (sq : K → K) (sigma : K) {k : Nat} (hk : k + 1 ≤ 10) (hB : BranchOk R S sq sigma k) : NodeOk R S sq sigma (k + 1) := by
  intro fuel fuelT G T u v st log g hT hL hu hv ru rv hf
  obtain ⟨fuel, rfl⟩ : ∃ j, fuel = j + 1 := ⟨fuel - 1, by omega⟩
  obtain ⟨h0, T0, T1, rfl, hT0, hT1⟩ := ffldl_inv hR hk g hT
  obtain ⟨hL0, hL1⟩ := hL
  have e := pow_succ 2 k
  have hp : 0 < 2 ^ k := by positivity
  have lsu := length_split u
  have lsv := length_split v
  have iu := interleave_split (f := u) (m := 2 ^ k) (by omega)
  have iv := interleave_split (f := v) (m := 2 ^ k) (by omega)
  -- conjugate symmetry of the diagonal entries and of l10
  have scl : SelfConj R (vec (2 ^ (k + 1)) fun i => G.c.getD i 0 / G.a.getD i 0) := by
    apply selfConj_vec_of hR
    intro i j hi hj hij
    have e1 := g.sc i j (by rw [g.len.2.2.1]; exact hi) (by rw [g.len.2.2.1]; exact hj) (by rw [g.len.2.2.1]; exact hij)
    have e2 := g.sa i j (by rw [g.len.1]; exact hi) (by rw [g.len.1]; exact hj) (by rw [g.len.1]; exact hij)
    rw [e1, e2, star_div₀]
  have scd : SelfConj R (vec (2 ^ (k + 1)) fun i => G.d.getD i 0 - G.c.getD i 0 / G.a.getD i 0 * star (G.c.getD i 0 / G.a.getD i 0) * G.a.getD i 0) := by
    apply selfConj_vec_of hR
    intro i j hi hj hij
    have e1 := g.sc i j (by rw [g.len.2.2.1]; exact hi) (by rw [g.len.2.2.1]; exact hj) (by rw [g.len.2.2.1]; exact hij)
    have e2 := g.sa i j (by rw [g.len.1]; exact hi) (by rw [g.len.1]; exact hj) (by rw [g.len.1]; exact hij)
    have e3 := g.sd i j (by rw [g.len.2.2.2]; exact hi) (by rw [g.len.2.2.2]; exact hj) (by rw [g.len.2.2.2]; exact hij)
    rw [e1, e2, e3]
    simp only [star_sub, star_mul', star_div₀, star_star]
  have rdd : ∀ i < 2 ^ (k + 1), star ((vec (2 ^ (k + 1)) fun i => G.d.getD i 0 - G.c.getD i 0 / G.a.getD i 0 * star (G.c.getD i 0 / G.a.getD i 0) * G.a.getD i 0).getD i 0) =
      (vec (2 ^ (k + 1)) fun i => G.d.getD i 0 - G.c.getD i 0 / G.a.getD i 0 * star (G.c.getD i 0 / G.a.getD i 0) * G.a.getD i 0).getD i 0 := by
    intro i hi
    rw [getD_vec_lt hi, star_sub, star_mul', star_mul', star_star, g.ra i hi, g.rd i hi]; ring
  -- right branch
  obtain ⟨a1, b1, st1, log1, la1, lb1, run1, ll1, sum1⟩ := hB fuel _ T1 (split v).1 (split v).2 st log (length_vec _ _) scd rdd hT1 hL1 (by omega) (by omega) (real_split rv).1 (real_split rv).2 (by omega)
  rw [iv] at sum1
  -- the new target is the transform of a real polynomial
  have sct : SelfConj R (vec (2 ^ (k + 1)) fun i => evalAt (R (2 ^ (k + 1)) i) u + (evalAt (R (2 ^ (k + 1)) i) v - evalAt (R (2 ^ (k + 1)) i) (toK (interleaveZ a1 b1))) * (G.c.getD i 0 / G.a.getD i 0)) := by
    apply selfConj_vec_of hR
    intro i j hi hj hij
    have e1 := scl i j (by rw [length_vec]; exact hi) (by rw [length_vec]; exact hj) (by rw [length_vec]; exact hij)
    rw [getD_vec_lt hi, getD_vec_lt hj] at e1
    rw [e1, hij]
    simp only [star_add, star_mul', star_sub, star_evalAt ru, star_evalAt rv, star_evalAt (real_toK _)]
  obtain ⟨w, _, lw, rw', ew⟩ := ifft_selfConj hR (k := k + 1) (by omega) hk (length_vec _ _) sct
  rw [fft_eq hR (by omega) hk lw] at ew
  injection ew with ew
  have lsw := length_split w
  have iw := interleave_split (f := w) (m := 2 ^ k) (by omega)
  -- left branch
  obtain ⟨a0, b0, st0, log0, la0, lb0, run0, ll0, sum0⟩ := hB fuel G.a T0 (split w).1 (split w).2 st1 (log ++ log1) g.len.1 g.sa g.ra hT0 hL0 (by omega) (by omega) (real_split rw').1 (real_split rw').2 (by omega)
  rw [iw] at sum0
  refine ⟨interleaveZ a0 b0, interleaveZ a1 b1, st0, log1 ++ log0, by rw [length_interleaveZ, la0, e, mul_comm], by rw [length_interleaveZ, la1, e, mul_comm], ?_, ?_, ?_⟩
  · simp only [normalizeTree]
    unfold ffSamplingLoop
    rw [if_pos (by rw [length_tr]; omega)]
    dsimp only
    rw [split_tr hR (by omega) hv]
    dsimp only
    rw [run1]
    dsimp only
    rw [merge_tr hR (by omega) (by rw [length_toK, la1]) (by rw [length_toK, lb1]), interleave_toK]
    dsimp only
    have hd : sub (tr R (k + 1) v) (tr R (k + 1) (toK (interleaveZ a1 b1))) = .ok (vec (2 ^ (k + 1)) fun i => evalAt (R (2 ^ (k + 1)) i) v - evalAt (R (2 ^ (k + 1)) i) (toK (interleaveZ a1 b1))) := sub_vec _ _ _
    rw [hd]
    dsimp only
    rw [mulFft_vec]
    dsimp only
    have ha : add (tr R (k + 1) u) (vec (2 ^ (k + 1)) fun i => (evalAt (R (2 ^ (k + 1)) i) v - evalAt (R (2 ^ (k + 1)) i) (toK (interleaveZ a1 b1))) * (G.c.getD i 0 / G.a.getD i 0)) =
        .ok (tr R (k + 1) w) := by
      unfold tr
      rw [add_vec, ← ew]
    rw [ha]
    dsimp only
    rw [split_tr hR (by omega) lw]
    dsimp only
    rw [run0]
    dsimp only
    rw [merge_tr hR (by omega) (by rw [length_toK, la0]) (by rw [length_toK, lb0]), interleave_toK, List.append_assoc]
  · rw [List.length_append, ll1, ll0, pow_succ 2 (k + 1)]; omega
  · rw [logSum_append]
    have : ∑ i ∈ range (2 ^ (k + 1)), quad G (dif R (k + 1) u (interleaveZ a0 b0)) (dif R (k + 1) v (interleaveZ a1 b1)) i =
        ∑ i ∈ range (2 ^ (k + 1)), (G.a.getD i 0 * ((dif R (k + 1) w (interleaveZ a0 b0)).getD i 0 * star ((dif R (k + 1) w (interleaveZ a0 b0)).getD i 0)) +
          (vec (2 ^ (k + 1)) fun i => G.d.getD i 0 - G.c.getD i 0 / G.a.getD i 0 * star (G.c.getD i 0 / G.a.getD i 0) * G.a.getD i 0).getD i 0 *
            ((dif R (k + 1) v (interleaveZ a1 b1)).getD i 0 * star ((dif R (k + 1) v (interleaveZ a1 b1)).getD i 0))) := by
      apply sum_congr rfl
      intro i hi
      have hi : i < 2 ^ (k + 1) := by simpa using hi
      have ewi := vec_inj ew i hi
      rw [quad_ldl hR g h0 hi, getD_vec_lt hi, getD_dif hR hi, getD_dif hR hi, getD_dif hR hi, ewi]
      congr 3
      · ring
      · congr 1; ring
    rw [this, sum_add_distrib, sum0, sum1]
    ring

theorem branch_of_node {St : Type} (S : LeafSampler St K) (sq : K → K) (sigma : K) {k : Nat} (hk : k + 1 < 10) (hN : NodeOk R S sq sigma (k + 1)) : BranchOk R S sq sigma (k + 1) := by
  intro fuel D T u v st log hD sc rD hT hL hu hv ru rv hf
  obtain ⟨d0, d1, fuelT, hs, hT⟩ := hT
  have g := good_split hR (by omega) hk hD sc rD hs
  obtain ⟨z0, z1, st', log', l0, l1, run, ll, sum⟩ := hN fuel fuelT _ T u v st log g hT hL hu hv ru rv hf
  refine ⟨z0, z1, st', log', l0, l1, run, ll, ?_⟩
  have lz0 : (toK z0 : List K).length = 2 ^ (k + 1) := by rw [length_toK, l0]
  have lz1 : (toK z1 : List K).length = 2 ^ (k + 1) := by rw [length_toK, l1]
  have hy : mergeFft R (dif R (k + 1) u z0) (dif R (k + 1) v z1) = .ok (dif R (k + 1 + 1) (interleave u v) (interleaveZ z0 z1)) := by
    have m1 := merge_tr hR hk hu hv
    have m2 := merge_tr hR hk lz0 lz1
    rw [interleave_toK] at m2
    rw [mergeFft_eq R (k := k + 1 + 1) (by omega) (by omega) (show (tr R (k + 1) u).length = _ from length_tr _ _ _) (show (tr R (k + 1) v).length = _ from length_tr _ _ _)] at m1
    rw [mergeFft_eq R (k := k + 1 + 1) (by omega) (by omega) (show (tr R (k + 1) (toK z0)).length = _ from length_tr _ _ _) (show (tr R (k + 1) (toK z1)).length = _ from length_tr _ _ _)] at m2
    injection m1 with m1
    injection m2 with m2
    have e := pow_succ 2 (k + 1)
    rw [mergeFft_eq R (k := k + 1 + 1) (by omega) (by omega) (show (dif R (k + 1) u z0).length = _ by simp [dif]) (show (dif R (k + 1) v z1).length = _ by simp [dif])]
    conv_rhs => unfold dif; rw [← m1, ← m2]
    congr 1
    apply vec_congr
    intro i hi
    unfold dif
    rw [getD_vec_lt hi, getD_vec_lt hi, getD_vec_lt (by omega), getD_vec_lt (by omega)]
    split <;> ring
  rw [diag_split hR hk hD rD hs hy (by simp [dif]) (by simp [dif]), sum]
  ring

theorem node_ok {St : Type} (S : LeafSampler St K) (sq : K → K) {sigma : K} (hs : sigma ≠ 0) : ∀ k, k + 1 ≤ 10 → NodeOk R S sq sigma (k + 1) := by
  have : ∀ k, k < 10 → BranchOk R S sq sigma k := by
    intro k
    induction k with
    | zero => intro _; exact branch_zero hR S sq hs
    | succ k ih => intro h; exact branch_of_node hR S sq sigma h (node_of_branch hR S sq sigma (by omega) (ih (by omega)))
  intro k hk
  exact node_of_branch hR S sq sigma hk (this k (by omega))

end Roots

end Verif.FFT
