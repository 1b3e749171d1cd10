import Verif.CRef.SignTreeExact
import Verif.CRef.SignDynProps

/-! # The tree signer: drawn integers and exactness of an attempt -/

namespace Verif.CRef.SignTree

open Verif.Ring Verif.CRef.Fpr Verif.CRef.Fft Verif.CRef.SignSampler Verif.CRef.SignDyn Verif.Falcon

theorem draw2_logged {σ : Type} (samp : Samp σ) (x : C) (w : W) (st : σ × List ℤ) (r : C × (σ × List ℤ)) (h : draw2 (logged samp) x w st = some r) :
    ∃ a b, r.1 = (ofInt a, ofInt b) ∧ r.2.2 = st.2 ++ [a, b] := by
  unfold draw2 at h
  split at h
  · cases h
  next a ha =>
    split at h
    · cases h
    next b hb =>
      cases h
      unfold logged at ha hb
      obtain ⟨a', ha', rfl⟩ := Option.map_eq_some_iff.1 ha
      obtain ⟨b', hb', rfl⟩ := Option.map_eq_some_iff.1 hb
      exact ⟨a'.1, b'.1, rfl, by simp⟩

theorem sample1_logged {σ : Type} (samp : Samp σ) (tree : List W) (x0 x1 : C) (st : σ × List ℤ) (r : C × C × (σ × List ℤ)) (h : sample1 (logged samp) tree x0 x1 st = some r) :
    ∃ a b c d, r.2.1 = (ofInt a, ofInt b) ∧ r.1 = (ofInt c, ofInt d) ∧ r.2.2.2 = st.2 ++ [a, b, c, d] := by
  unfold sample1 at h
  split at h
  · cases h
  next p hp =>
    split at h
    · cases h
    next q hq =>
      cases h
      obtain ⟨a, b, e1, e2⟩ := draw2_logged _ _ _ _ _ hp
      obtain ⟨c, d, e3, e4⟩ := draw2_logged _ _ _ _ _ hq
      exact ⟨a, b, c, d, e1, e3, by show q.2.2 = _; rw [e4, e2]; simp⟩

theorem base1_int (Z : ℕ) (hZ : 1 ≤ Z) (hZ2 : Z ≤ 2 ^ 50) (a b : ℤ) (ha : |a| ≤ Z) (hb : |b| ≤ Z) : IntFft Z 1 [ofInt a, ofInt b] [a, b] := by
  have one : ∀ c : ℤ, |c| ≤ Z → ∀ x ∈ [c], |x| ≤ (Z : ℤ) := fun c hc x hx => by rw [List.mem_singleton.1 hx]; exact hc
  exact merge_int Z hZ hZ2 0 (by norm_num) [ofInt a] [ofInt b] [a] [b] rfl rfl (one a ha) (one b hb) rfl rfl

/-- Whatever the targets and the tree hold, the result is the transform of the drawn integers, taken in the order of the other signer. -/
theorem tree_int {σ : Type} (samp : Samp σ) (Z : ℕ) (hZ : 1 ≤ Z) (hZ2 : Z ≤ 2 ^ 50) : ∀ (k : ℕ), k ≤ 10 → ∀ (tree t0 t1 : List W) (st : σ × List ℤ) (r : List W × List W × (σ × List ℤ)),
    ffSamplingTree (logged samp) k tree t0 t1 st = some r → ∃ l, r.2.2.2 = st.2 ++ l ∧ l.length = 2 ^ (k + 1) ∧
      ((∀ x ∈ l, |x| ≤ Z) → IntFft Z k r.1 (arrange k l).1 ∧ IntFft Z k r.2.1 (arrange k l).2)
  | 0, _, _, _, _, _, _, h => by unfold ffSamplingTree at h; cases h
  | 1, _, tree, t0, t1, st, r, h => by
    unfold ffSamplingTree at h
    split at h
    · cases h
    next p hp =>
      cases h
      obtain ⟨a, b, c, d, e1, e2, e3⟩ := sample1_logged _ _ _ _ _ _ hp
      refine ⟨[a, b, c, d], e3, rfl, fun hl => ?_⟩
      dsimp only
      rw [e1, e2]
      exact ⟨base1_int Z hZ hZ2 c d (hl c (by simp)) (hl d (by simp)), base1_int Z hZ hZ2 a b (hl a (by simp)) (hl b (by simp))⟩
  | 2, _, tree, t0, t1, st, r, h => by
    unfold ffSamplingTree at h
    dsimp only at h
    split at h
    · cases h
    next p hp =>
      split at h
      · cases h
      next q hq =>
        cases h
        obtain ⟨a, b, c, d, e1, e2, e3⟩ := sample1_logged _ _ _ _ _ _ hp
        obtain ⟨a', b', c', d', f1, f2, f3⟩ := sample1_logged _ _ _ _ _ _ hq
        refine ⟨[a, b, c, d, a', b', c', d'], by show q.2.2.2 = _; rw [f3, e3]; simp, rfl, fun hl => ?_⟩
        dsimp only
        rw [e1, e2, f1, f2]
        exact ⟨merge4_int Z hZ hZ2 c' d' a' b' (hl c' (by simp)) (hl d' (by simp)) (hl a' (by simp)) (hl b' (by simp)), merge4_int Z hZ hZ2 c d a b (hl c (by simp)) (hl d (by simp)) (hl a (by simp)) (hl b (by simp))⟩
  | k + 3, hk, tree, t0, t1, st, r, h => by
    unfold ffSamplingTree at h
    dsimp only at h
    split at h
    · cases h
    next a ha =>
      split at h
      · cases h
      next b hb =>
        cases h
        obtain ⟨l1, e1, n1, p1⟩ := tree_int samp Z hZ hZ2 (k + 2) (by omega) _ _ _ _ _ ha
        obtain ⟨l2, e2, n2, p2⟩ := tree_int samp Z hZ hZ2 (k + 2) (by omega) _ _ _ _ _ hb
        refine ⟨l1 ++ l2, by rw [e2, e1, List.append_assoc], by rw [List.length_append, n1, n2, pow_succ 2 (k + 2 + 1)]; ring, fun hl => ?_⟩
        have b1 : ∀ x ∈ l1, |x| ≤ (Z : ℤ) := fun x hx => hl x (List.mem_append_left _ hx)
        have b2 : ∀ x ∈ l2, |x| ≤ (Z : ℤ) := fun x hx => hl x (List.mem_append_right _ hx)
        have t : (l1 ++ l2).take (2 ^ (k + 2 + 1)) = l1 := by rw [← n1]; exact List.take_left
        have d : (l1 ++ l2).drop (2 ^ (k + 2 + 1)) = l2 := by rw [← n1]; exact List.drop_left
        rw [show k + 3 = (k + 2) + 1 from rfl]
        unfold arrange
        dsimp only
        rw [t, d]
        have A1 := arrange_bound Z (by positivity) (k + 2) l1 b1
        have A2 := arrange_bound Z (by positivity) (k + 2) l2 b2
        have L1 := arrange_length (k + 2) l1
        have L2 := arrange_length (k + 2) l2
        exact ⟨merge_int Z hZ hZ2 (k + 2) (by omega) _ _ _ _ L2.1 L2.2 A2.1 A2.2 (p2 b2).1 (p2 b2).2, merge_int Z hZ hZ2 (k + 2) (by omega) _ _ _ _ L1.1 L1.2 A1.1 A1.2 (p1 b1).1 (p1 b1).2⟩

theorem draw2_same {σ : Type} (samp : Samp σ) (x : C) (w : W) (st : σ) (l : List ℤ) : (draw2 (logged samp) x w (st, l)).map (fun r => (r.1, r.2.1)) = draw2 samp x w st := by
  unfold draw2 logged
  dsimp only
  rcases samp st x.1 w with _ | a
  · rfl
  · dsimp only [Option.map_some]
    rcases samp a.2 x.2 w with _ | b <;> rfl

theorem sample1_same {σ : Type} (samp : Samp σ) (tree : List W) (x0 x1 : C) (st : σ) (l : List ℤ) :
    (sample1 (logged samp) tree x0 x1 (st, l)).map (fun r => (r.1, r.2.1, r.2.2.1)) = sample1 samp tree x0 x1 st := by
  unfold sample1
  rw [← draw2_same samp _ _ st l]
  rcases draw2 (logged samp) x1 tree[3]! (st, l) with _ | a
  · rfl
  · dsimp only [Option.map_some]
    rw [← draw2_same samp _ _ a.2.1 a.2.2]
    rcases draw2 (logged samp) (cAdd (cMul (cSub x1 a.1) (tree[0]!, tree[1]!)) x0) tree[2]! a.2 with _ | b <;> rfl

/-- Recording changes nothing else. -/
theorem tree_logged {σ : Type} (samp : Samp σ) : ∀ (k : ℕ) (tree t0 t1 : List W) (st : σ) (l : List ℤ),
    (ffSamplingTree (logged samp) k tree t0 t1 (st, l)).map (fun r => (r.1, r.2.1, r.2.2.1)) = ffSamplingTree samp k tree t0 t1 st
  | 0, _, _, _, _, _ => rfl
  | 1, tree, t0, t1, st, l => by
    unfold ffSamplingTree
    rw [← sample1_same samp _ _ _ st l]
    rcases sample1 (logged samp) tree _ _ (st, l) with _ | a <;> rfl
  | 2, tree, t0, t1, st, l => by
    unfold ffSamplingTree
    dsimp only
    rw [← sample1_same samp _ _ _ st l]
    rcases sample1 (logged samp) (tree.drop 8) _ _ (st, l) with _ | a
    · rfl
    · dsimp only [Option.map_some]
      rw [← sample1_same samp _ _ _ a.2.2.1 a.2.2.2]
      rcases sample1 (logged samp) (tree.drop 4) _ _ a.2.2 with _ | b <;> rfl
  | k + 3, tree, t0, t1, st, l => by
    unfold ffSamplingTree
    dsimp only
    rw [← tree_logged samp (k + 2) _ _ _ st l]
    rcases ffSamplingTree (logged samp) (k + 2) (tree.drop (2 ^ (k + 3) + treesize (k + 2))) _ _ (st, l) with _ | a
    · rfl
    · dsimp only [Option.map_some]
      rw [← tree_logged samp (k + 2) _ _ _ a.2.2.1 a.2.2.2]
      rcases ffSamplingTree (logged samp) (k + 2) (tree.drop (2 ^ (k + 3))) _ _ a.2.2 with _ | b <;> rfl

/-- The end of an attempt, common to both signers. -/
theorem finish (s : ℕ) (hs : s ≤ 9) (f g F G : List ℤ) (hf : Vec8 (2 ^ (s + 1)) f) (hg : Vec8 (2 ^ (s + 1)) g) (hF : Vec8 (2 ^ (s + 1)) F) (hG : Vec8 (2 ^ (s + 1)) G) (hm : List ℕ) (t0 t1 : List W) (z0 z1 : List ℤ)
    (i0 : IntFft 32768 (s + 1) t0 z0) (i1 : IntFft 32768 (s + 1) t1 z1) (s1 s2 : List ℤ) (hp : IsVector (2 ^ (s + 1)) f g F G hm z0 z1 s1 s2) (v1 : Vec16 (2 ^ (s + 1)) s1) (v2 : Vec16 (2 ^ (s + 1)) s2) :
    (if isShortHalf (s + 1) (sqnOf hm (point (basis f g F G (s + 1)) t0 t1 (s + 1)).1 (s + 1)) ((List.range (2 ^ (s + 1))).map fun u => s2Of (point (basis f g F G (s + 1)) t0 t1 (s + 1)).2[u]!)
      then some ((List.range (2 ^ (s + 1))).map fun u => s2Of (point (basis f g F G (s + 1)) t0 t1 (s + 1)).2[u]!) else none) = if normSq s1 + normSq s2 ≤ l2bound[s + 1]! then some s2 else none := by
  have px := point_exact s hs f g F G hf hg hF hG t0 t1 z0 z1 32768 (by norm_num) (by norm_num) (by exact_mod_cast i0) (by exact_mod_cast i1)
  obtain ⟨p1, p2, p3⟩ := hp
  have b1 : ∀ j < 2 ^ (s + 1), IsInt16 (s1.getD j 0) := fun j hj => by
    rw [List.getD_eq_getElem _ _ (by rw [p1]; exact hj)]; exact v1.2 _ (List.getElem_mem _)
  have b2 : ∀ j < 2 ^ (s + 1), IsInt16 (s2.getD j 0) := fun j hj => by
    rw [List.getD_eq_getElem _ _ (by rw [p2]; exact hj)]; exact v2.2 _ (List.getElem_mem _)
  have gn : ∀ j, hm[j]! = hm.getD j 0 := fun j => by rw [List.getElem!_eq_getElem?_getD, List.getD_eq_getElem?_getD]; rfl
  have e1 : ∀ j < 2 ^ (s + 1), s1Of hm[j]! (point (basis f g F G (s + 1)) t0 t1 (s + 1)).1[j]! = s1[j]! := by
    intro j hj
    rw [get_getD s1, gn]
    refine s1_exact _ _ _ ?_ (b1 j hj)
    rw [(px j hj).1, (p3 j hj).1]; ring
  have e2 : (List.range (2 ^ (s + 1))).map (fun u => s2Of (point (basis f g F G (s + 1)) t0 t1 (s + 1)).2[u]!) = s2 := by
    refine List.ext_getElem (by rw [List.length_map, List.length_range, p2]) fun j hj1 hj2 => ?_
    have hj : j < 2 ^ (s + 1) := by rw [← p2]; exact hj2
    rw [List.getElem_map, List.getElem_range, ← List.getD_eq_getElem s2 0 hj2]
    refine s2_exact _ _ ?_ (b2 j hj)
    rw [(px j hj).2, (p3 j hj).2]
  rw [e2]
  have ck := check_exact (s + 1) hm _ s1 s2 v1 v2 e1
  by_cases c : normSq s1 + normSq s2 ≤ l2bound[s + 1]!
  · rw [if_pos c, if_pos (ck.2 c)]
  · rw [if_neg c, if_neg (fun h => c (ck.1 h))]

end Verif.CRef.SignTree
