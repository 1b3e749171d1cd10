import Verif.FFT.Ldl

namespace Verif.FFT

open Finset

set_option linter.unusedSectionVars false

variable {K : Type} [Field K] [StarRing K] [DecidableEq K]

/-- The transform of `f` at level `k`: its values at the roots of `x^(2^k) + 1` (a constant for `k = 0`). -/
def tr (R : Nat → Nat → K) (k : Nat) (f : List K) : List K := vec (2 ^ k) fun i => evalAt (R (2 ^ k) i) f

/-- An integer polynomial in `K`. -/
def toK (z : List Int) : List K := z.map fun x : Int => (x : K)

theorem length_toK (z : List Int) : (toK z : List K).length = z.length := by simp [toK]

theorem real_toK (z : List Int) : Real' (toK z : List K) := by
  intro x hx
  simp only [toK, List.mem_map] at hx
  obtain ⟨y, _, rfl⟩ := hx
  exact star_intCast y

theorem length_tr (R : Nat → Nat → K) (k : Nat) (f : List K) : (tr R k f).length = 2 ^ k := by simp [tr]

theorem tr_zero (R : Nat → Nat → K) (x : K) : tr R 0 [x] = [x] := by
  simp [tr, vec, evalAt]

theorem eq_singleton {f : List K} (h : f.length = 2 ^ 0) : f = [f.getD 0 0] := by
  have := eq_vec' h; exact this

/-- Interleaving, what `merge` returns on lists of equal lengths. -/
def interleave (a b : List K) : List K := vec (2 * a.length) fun k => if k % 2 = 0 then a.getD (k / 2) 0 else b.getD (k / 2) 0

theorem merge_eq {a b : List K} (h : a.length = b.length) : merge a b = .ok (interleave a b) := by
  unfold merge
  rw [if_neg (by omega)]; rfl

theorem length_interleave (a b : List K) : (interleave a b).length = 2 * a.length := by simp [interleave]

theorem split_interleave {a b : List K} (h : a.length = b.length) : split (interleave a b) = (a, b) := split_merge h (merge_eq h)

theorem interleave_split {f : List K} {m : Nat} (h : f.length = 2 * m) : interleave (split f).1 (split f).2 = f := by
  have := merge_split h
  rw [merge_eq (by rw [split_eq h]; simp)] at this
  injection this

theorem real_interleave {a b : List K} (ha : Real' a) (hb : Real' b) : Real' (interleave a b) := by
  apply real_vec; intro i _; split
  · exact ha.getD _
  · exact hb.getD _

theorem real_split {f : List K} (hf : Real' f) : Real' (split f).1 ∧ Real' (split f).2 :=
  ⟨real_vec fun _ _ => hf.getD _, real_vec fun _ _ => hf.getD _⟩

theorem length_split (f : List K) : (split f).1.length = f.length / 2 ∧ (split f).2.length = f.length / 2 := by simp [split]

/-- Interleaving integer lists. -/
def interleaveZ (a b : List Int) : List Int := (List.range (2 * a.length)).map fun k => if k % 2 = 0 then a.getD (k / 2) 0 else b.getD (k / 2) 0

theorem getD_toK (z : List Int) (i : Nat) : (toK z : List K).getD i 0 = ((z.getD i 0 : Int) : K) := by
  simp only [toK, List.getD_eq_getElem?_getD, List.getElem?_map]
  cases z[i]? <;> simp

theorem interleave_toK (a b : List Int) : interleave (toK a) (toK b) = (toK (interleaveZ a b) : List K) := by
  unfold interleave interleaveZ
  rw [length_toK]
  conv_rhs => unfold toK
  rw [List.map_map]
  apply List.map_congr_left
  intro k _
  simp only [Function.comp]
  split <;> rw [getD_toK]

theorem length_interleaveZ (a b : List Int) : (interleaveZ a b).length = 2 * a.length := by simp [interleaveZ]

section Roots
variable {R : Nat → Nat → K} {I : K} (hR : RootLaw R I)
include hR

theorem evalAt_single (r x : K) : evalAt r [x] = x := by simp [evalAt]

theorem merge_tr {k : Nat} (h2 : k < 10) {a b : List K} (ha : a.length = 2 ^ k) (hb : b.length = 2 ^ k) :
    mergeFft R (tr R k a) (tr R k b) = .ok (tr R (k + 1) (interleave a b)) := by
  have e := pow_succ 2 k
  rw [mergeFft_eq R (k := k + 1) (by omega) (by omega) (show (tr R k a).length = _ from length_tr _ _ _) (show (tr R k b).length = _ from length_tr _ _ _)]
  congr 1
  apply vec_congr
  intro j hj
  unfold tr
  rw [getD_vec_lt (by omega), getD_vec_lt (by omega), evalAt_split (f := interleave a b) (m := 2 ^ k) (by rw [length_interleave, ha]), split_interleave (by omega)]
  have hodd : j % 2 ≠ 0 → R (2 ^ (k + 1)) j = -R (2 ^ (k + 1)) (2 * (j / 2)) := by
    intro h
    have := hR.neg (k + 1) (j / 2) (by omega) (by omega) (by simp; omega)
    rw [show 2 * (j / 2) + 1 = j by omega] at this
    exact this
  rcases Nat.eq_zero_or_pos k with rfl | hk
  · rw [eq_singleton ha, eq_singleton hb]
    simp only [evalAt_single hR]
    split
    · rw [show 2 * (j / 2) = j by omega]
    · rename_i h; rw [hodd h]; ring
  · rw [hR.sq' hk (by omega) hj]
    split
    · rw [show 2 * (j / 2) = j by omega]
    · rename_i h; rw [hodd h]; ring

theorem split_tr {k : Nat} (h2 : k < 10) {f : List K} (hf : f.length = 2 ^ (k + 1)) : splitFft R (tr R (k + 1) f) = .ok (tr R k (split f).1, tr R k (split f).2) := by
  have e := pow_succ 2 k
  have hs := length_split f
  apply splitFft_mergeFft hR (k := k + 1) (by omega) (by omega) (length_tr _ _ _) (length_tr _ _ _)
  show mergeFft R (tr R k (split f).1) (tr R k (split f).2) = _
  rw [merge_tr hR h2 (by omega) (by omega), interleave_split (m := 2 ^ k) (by omega)]

end Roots

/-- The shape of an ffLDL tree for lists of length `2^k`. -/
def Shaped : Nat → Tree K → Prop
  | 0, .leaf l => l ≠ []
  | k + 1, .node l10 T0 T1 => l10.length = 2 ^ (k + 1) ∧ Shaped k T0 ∧ Shaped k T1
  | _, _ => False

/-- Sampling returns transforms of integer polynomials, whatever the leaf sampler does. -/
theorem ffSamplingLoop_int {St : Type} {R : Nat → Nat → K} {I : K} (hR : RootLaw R I) (S : LeafSampler St K) (useLeaf : Bool) : ∀ (k : Nat), k ≤ 10 → ∀ (fuel : Nat) (t0 t1 : List K) (T : Tree K) (st : St),
    t0.length = 2 ^ k → t1.length = 2 ^ k → Shaped k T → k < fuel →
    ∃ (z0 z1 : List Int) (st' : St), z0.length = 2 ^ k ∧ z1.length = 2 ^ k ∧ ffSamplingLoop R S useLeaf fuel t0 t1 T st = .ok ((tr R k (toK z0), tr R k (toK z1)), st') := by
  intro k
  induction k with
  | zero =>
    intro _ fuel t0 t1 T st h0 h1 hT hf
    obtain ⟨fuel, rfl⟩ : ∃ j, fuel = j + 1 := ⟨fuel - 1, by omega⟩
    rcases T with l | _
    swap
    · exact absurd hT (by simp [Shaped])
    have hl : l ≠ [] := hT
    unfold ffSamplingLoop
    rw [if_neg (by rw [h0]; simp), if_pos (by rw [h0]; simp)]
    obtain ⟨s, l, rfl⟩ : ∃ s l', l = s :: l' := by cases l with | nil => exact absurd rfl hl | cons s l' => exact ⟨s, l', rfl⟩
    rw [eq_singleton h1]
    cases useLeaf
    · exact ⟨[_], [_], _, rfl, rfl, by simp only [toK, List.map_cons, List.map_nil, tr_zero]; rfl⟩
    · exact ⟨[_], [_], _, rfl, rfl, by simp only [toK, List.map_cons, List.map_nil, tr_zero]; rfl⟩
  | succ k ih =>
    intro hk fuel t0 t1 T st h0 h1 hT hf
    obtain ⟨fuel, rfl⟩ : ∃ j, fuel = j + 1 := ⟨fuel - 1, by omega⟩
    rcases T with _ | ⟨l10, T0, T1⟩
    · exact absurd hT (by simp [Shaped])
    obtain ⟨hl, hT0, hT1⟩ := hT
    have e := pow_succ 2 k
    have hp : 0 < 2 ^ k := by positivity
    unfold ffSamplingLoop
    rw [if_pos (by omega)]
    dsimp only
    rw [splitFft_eq R (by omega) hk h1]
    dsimp only
    obtain ⟨a, b, s1, la, lb, e1⟩ := ih (by omega) fuel _ _ T1 st (length_vec _ _) (length_vec _ _) hT1 (by omega)
    simp only [Nat.add_sub_cancel] at e1 ⊢
    rw [e1]
    dsimp only
    rw [merge_tr hR (by omega) (by rw [length_toK, la]) (by rw [length_toK, lb]), interleave_toK]
    dsimp only
    rw [sub_eq hR h1 (length_tr _ _ _)]
    dsimp only
    rw [eq_vec' hl, mulFft_vec]
    dsimp only
    rw [add_eq hR h0 (by simp)]
    dsimp only
    rw [splitFft_eq R (by omega) hk (length_polyAdd hR _ _ _)]
    dsimp only
    obtain ⟨a', b', s2, la', lb', e2⟩ := ih (by omega) fuel _ _ T0 s1 (length_vec _ _) (length_vec _ _) hT0 (by omega)
    simp only [Nat.add_sub_cancel] at e2 ⊢
    rw [e2]
    dsimp only
    rw [merge_tr hR (by omega) (by rw [length_toK, la']) (by rw [length_toK, lb']), interleave_toK]
    exact ⟨_, _, s2, by rw [length_interleaveZ, la', e, mul_comm], by rw [length_interleaveZ, la, e, mul_comm], rfl⟩

/-! ## The length of the sampled vector -/

/-- A leaf sampler that also records, for every call, the centre, the deviation and the integer returned. -/
def logged {St : Type} (S : LeafSampler St K) : LeafSampler (St × List (K × K × Int)) K :=
  fun st c s => ((S st.1 c s).1, ((S st.1 c s).2, st.2 ++ [(c, s.getD 0, (S st.1 c s).1)]))

/-- `Σ ((centre - z) / deviation)²` over the recorded calls. -/
def logSum (log : List (K × K × Int)) : K := (log.map fun e => ((e.1 - (e.2.2 : K)) / e.2.1) ^ 2).sum

theorem logSum_append (a b : List (K × K × Int)) : logSum (a ++ b) = logSum a + logSum b := by
  unfold logSum; rw [List.map_append, List.sum_append]

/-- `(y0, y1) G (y0, y1)*` at index `i`. -/
def quad (G : Mat K) (y0 y1 : List K) (i : Nat) : K :=
  y0.getD i 0 * G.a.getD i 0 * star (y0.getD i 0) + y0.getD i 0 * G.b.getD i 0 * star (y1.getD i 0) +
  y1.getD i 0 * G.c.getD i 0 * star (y0.getD i 0) + y1.getD i 0 * G.d.getD i 0 * star (y1.getD i 0)

/-- Self-adjoint Gram matrices of transforms of real polynomials. -/
structure Good (R : Nat → Nat → K) (k : Nat) (G : Mat K) : Prop where
  len : G.Len (2 ^ k)
  sa : SelfConj R G.a
  sc : SelfConj R G.c
  sd : SelfConj R G.d
  ra : ∀ i < 2 ^ k, star (G.a.getD i 0) = G.a.getD i 0
  rd : ∀ i < 2 ^ k, star (G.d.getD i 0) = G.d.getD i 0
  bc : ∀ i < 2 ^ k, G.b.getD i 0 = star (G.c.getD i 0)

/-- Every leaf value has the square root `sq` computes. -/
def LeafSq (sq : K → K) : Tree K → Prop
  | .leaf l => l.length = 2 ∧ sq (re (l.getD 0 0)) * sq (re (l.getD 0 0)) = l.getD 0 0 ∧ sq (re (l.getD 0 0)) ≠ 0
  | .node _ T0 T1 => LeafSq sq T0 ∧ LeafSq sq T1

theorem pairSum (m : Nat) (φ : Nat → K) : ∑ i ∈ range (2 * m), φ i = ∑ i ∈ range m, (φ (2 * i) + φ (2 * i + 1)) := by
  induction m with
  | zero => simp
  | succ m ih => rw [show 2 * (m + 1) = 2 * m + 1 + 1 by ring, sum_range_succ, sum_range_succ, ih, sum_range_succ]; ring

section Roots
variable {R : Nat → Nat → K} {I : K} (hR : RootLaw R I)
include hR

/-- The two children matrices of a self-adjoint diagonal entry are good. -/
theorem good_split {k : Nat} (h1 : 1 ≤ k) (h2 : k < 10) {D d0 d1 : List K} (hl : D.length = 2 ^ (k + 1)) (sc : SelfConj R D) (rD : ∀ i < 2 ^ (k + 1), star (D.getD i 0) = D.getD i 0)
    (hs : splitFft R D = .ok (d0, d1)) : Good R k ⟨d0, d1, adjFft d1, d0⟩ := by
  have e := pow_succ 2 k
  obtain ⟨s0, s1⟩ := selfConj_splitFft hR h1 h2 hl sc hs
  rw [splitFft_eq R (by omega) (by omega) hl] at hs
  injection hs with hs; injection hs with e0 e1
  simp only [Nat.add_sub_cancel] at e0 e1
  have l0 : d0.length = 2 ^ k := by rw [← e0]; simp
  have l1 : d1.length = 2 ^ k := by rw [← e1]; simp
  have rd0 : ∀ i < 2 ^ k, star (d0.getD i 0) = d0.getD i 0 := by
    intro i hi
    rw [← e0, getD_vec_lt hi, star_mul', star_add, rD _ (by omega), rD _ (by omega), star_div₀, star_one, star_ofNat]
  refine ⟨⟨l0, l1, by simp [adjFft, l1], l0⟩, s0, ?_, s0, rd0, rd0, ?_⟩
  · intro i j hi hj h
    have la : (adjFft d1).length = d1.length := by simp [adjFft]
    simp only [la] at hi hj h
    have := s1 i j hi hj h
    rw [eq_vec d1, adjFft_vec, getD_vec_lt hj, getD_vec_lt hi, this]
  · intro i hi
    rw [show adjFft d1 = vec (2 ^ k) fun i => star (d1.getD i 0) by rw [← adjFft_vec, ← eq_vec' l1], getD_vec_lt hi, star_star]

/-- One diagonal entry: its weighted norm is twice the quadratic form of its children matrix. -/
theorem diag_split {k : Nat} (h2 : k < 10) {D d0 d1 y u v : List K} (hl : D.length = 2 ^ (k + 1)) (rD : ∀ i < 2 ^ (k + 1), star (D.getD i 0) = D.getD i 0)
    (hs : splitFft R D = .ok (d0, d1)) (hy : mergeFft R u v = .ok y) (hu : u.length = 2 ^ k) (hv : v.length = 2 ^ k) :
    ∑ i ∈ range (2 ^ (k + 1)), D.getD i 0 * (y.getD i 0 * star (y.getD i 0)) = 2 * ∑ i ∈ range (2 ^ k), quad ⟨d0, d1, adjFft d1, d0⟩ u v i := by
  have e := pow_succ 2 k
  have hm := mergeFft_splitFft hR (by omega) (by omega) hl hs
  rw [splitFft_eq R (by omega) (by omega) hl] at hs
  injection hs with hs; injection hs with e0 e1
  simp only [Nat.add_sub_cancel] at e0 e1
  have l0 : d0.length = 2 ^ k := by rw [← e0]; simp
  have l1 : d1.length = 2 ^ k := by rw [← e1]; simp
  rw [mergeFft_eq R (k := k + 1) (by omega) (by omega) l0 l1] at hm
  rw [mergeFft_eq R (k := k + 1) (by omega) (by omega) hu hv] at hy
  injection hm with hm
  injection hy with hy
  conv_lhs => rw [e, mul_comm (2 ^ k) 2]
  rw [pairSum, mul_sum]
  apply sum_congr rfl
  intro i hi
  have hi : i < 2 ^ k := by simpa using hi
  have hu' := hR.unit (k + 1) (2 * i) (by omega) (by omega) (by omega)
  have D0 : D.getD (2 * i) 0 = d0.getD i 0 + R (2 ^ (k + 1)) (2 * i) * d1.getD i 0 := by
    rw [← hm, getD_vec_lt (by omega), if_pos (by omega), show 2 * i / 2 = i by omega]
  have D1 : D.getD (2 * i + 1) 0 = d0.getD i 0 - R (2 ^ (k + 1)) (2 * i) * d1.getD i 0 := by
    rw [← hm, getD_vec_lt (by omega), if_neg (by omega), show (2 * i + 1) / 2 = i by omega]
  have Y0 : y.getD (2 * i) 0 = u.getD i 0 + R (2 ^ (k + 1)) (2 * i) * v.getD i 0 := by
    rw [← hy, getD_vec_lt (by omega), if_pos (by omega), show 2 * i / 2 = i by omega]
  have Y1 : y.getD (2 * i + 1) 0 = u.getD i 0 - R (2 ^ (k + 1)) (2 * i) * v.getD i 0 := by
    rw [← hy, getD_vec_lt (by omega), if_neg (by omega), show (2 * i + 1) / 2 = i by omega]
  have r0 := rD (2 * i) (by omega)
  have r1 := rD (2 * i + 1) (by omega)
  rw [D0] at r0
  rw [D1] at r1
  rw [D0, D1, Y0, Y1]
  unfold quad
  dsimp only
  rw [show adjFft d1 = vec (2 ^ k) fun i => star (d1.getD i 0) by rw [← adjFft_vec, ← eq_vec' l1], getD_vec_lt hi]
  generalize R (2 ^ (k + 1)) (2 * i) = w at *
  generalize d0.getD i 0 = p at *
  generalize d1.getD i 0 = r at *
  generalize u.getD i 0 = a at *
  generalize v.getD i 0 = b at *
  simp only [star_add, star_sub, star_mul'] at r0 r1 ⊢
  have h2' := hR.two
  have hd : w * r = star w * star r := by
    have : 2 * (w * r) = 2 * (star w * star r) := by linear_combination -r0 + r1
    exact mul_left_cancel₀ h2' this
  have hd1 : star r = w * w * r := by linear_combination (-w) * hd - star r * hu'
  rw [hd1]
  linear_combination (2 * p * b * star b + 2 * r * a * star b) * hu'

/-- Completing the square: `y G y* = D00 |y0 + y1 l10|² + D11 |y1|²`. -/
theorem quad_ldl {k : Nat} {G : Mat K} (g : Good R k G) (h0 : ∀ i < 2 ^ k, G.a.getD i 0 ≠ 0) {y0 y1 : List K} {i : Nat} (hi : i < 2 ^ k) : quad G y0 y1 i =
    G.a.getD i 0 * ((y0.getD i 0 + y1.getD i 0 * (G.c.getD i 0 / G.a.getD i 0)) * star (y0.getD i 0 + y1.getD i 0 * (G.c.getD i 0 / G.a.getD i 0))) +
    (G.d.getD i 0 - G.c.getD i 0 / G.a.getD i 0 * star (G.c.getD i 0 / G.a.getD i 0) * G.a.getD i 0) * (y1.getD i 0 * star (y1.getD i 0)) := by
  unfold quad
  rw [g.bc i hi]
  have ra := g.ra i hi
  have h0 := h0 i hi
  simp only [star_add, star_mul', star_div₀, ra]
  field_simp
  ring

end Roots

end Verif.FFT
