import Verif.CRef.SignTreeRefine
import Verif.CRef.CentreTree

/-! # The recursion on the stored tree is the recursion of `do_sign_dyn` on the Gram matrix -/

namespace Verif.CRef.SignTree

open Verif.CRef.Fpr Verif.CRef.Fft Verif.CRef.SignSampler Verif.CRef.SignDyn

theorem two_elems (l : List W) (h : l.length = 2 ^ (0 + 1)) : l = [l[0]!, l[1]!] := by
  match l, h with
  | [_, _], _ => rfl

theorem tb_slot (s : ℕ) (t0 t1 z1 d : List W) (p : ℕ) (hp : p < 2 ^ s) : slot (polyAdd t0 (polyMulFft d (Fft.polySub t1 z1 (s + 1)) (s + 1)) (s + 1)) (2 ^ s) p =
    cAdd (cMul (cSub (slot t1 (2 ^ s) p) (slot z1 (2 ^ s) p)) (slot d (2 ^ s) p)) (slot t0 (2 ^ s) p) := by
  rw [(polyAdd_slot s _ _).2 p hp, polyMul_slot s _ _ p hp, polySub_slot s _ _ p hp, cAdd_comm, cMul_comm]

theorem nodes_one (orig : ℕ) (g00 g01 g11 X : List W) : ∃ d : List W × List W, polyLdlFft g00 g01 g11 (0 + 1) = d ∧
    nodes orig 1 g00 g01 g11 ++ X = d.1[0]! :: d.1[1]! :: mul (sqrt (polySplitFft g00 (0 + 1)).1[0]!) invSigma[orig]! :: mul (sqrt (polySplitFft d.2 (0 + 1)).1[0]!) invSigma[orig]! :: X := by
  refine ⟨_, rfl, ?_⟩
  have l := ldl_length1 g00 g01 g11 (0 + 1)
  unfold nodes nodes
  dsimp only
  generalize polyLdlFft g00 g01 g11 (0 + 1) = d at *
  conv_lhs => rw [two_elems d.1 l]
  rfl

theorem by1 {σ : Type} (samp : Samp σ) (orig : ℕ) (g00 g01 g11 X t0 t1 : List W) (st : σ) : ffSamplingBy splitTree mergeTree samp orig 1 t0 t1 g00 g01 g11 st =
    (sample1 samp (nodes orig 1 g00 g01 g11 ++ X) (t0[0]!, t0[1]!) (t1[0]!, t1[1]!) st).map fun a => ([a.1.1, a.1.2], [a.2.1.1, a.2.1.2], a.2.2) := by
  obtain ⟨d, hd, hn⟩ := nodes_one orig g00 g01 g11 X
  rw [hn]
  unfold ffSamplingBy
  dsimp only
  rw [hd]
  have sp : ∀ f : List W, splitTree f (0 + 1) = ([f[0]!], [f[1]!]) := fun f => rfl
  have mg : ∀ a b : W, mergeTree [a] [b] (0 + 1) = [a, b] := fun a b => rfl
  rw [sp]
  dsimp only
  unfold ffSamplingBy sample1 draw2
  dsimp only
  have g1 : ∀ (a b : W) (l : List W), (a :: b :: l)[0]! = a ∧ (a :: b :: l)[1]! = b := fun _ _ _ => ⟨rfl, rfl⟩
  have g3 : ∀ (a b c d : W) (l : List W), (a :: b :: c :: d :: l)[2]! = c ∧ (a :: b :: c :: d :: l)[3]! = d := fun _ _ _ _ _ => ⟨rfl, rfl⟩
  have g0 : ∀ a : W, ([a] : List W)[0]! = a := fun _ => rfl
  rw [(g1 _ _ _).1, (g1 _ _ _).2, (g3 _ _ _ _ _).1, (g3 _ _ _ _ _).2, g0, g0]
  generalize mul (sqrt (polySplitFft d.2 (0 + 1)).1[0]!) invSigma[orig]! = w1
  generalize mul (sqrt (polySplitFft g00 (0 + 1)).1[0]!) invSigma[orig]! = w0
  rcases samp st t1[0]! w1 with _ | a
  · rfl
  dsimp only
  rcases samp a.2 t1[1]! w1 with _ | b
  · rfl
  dsimp only
  rw [mg, sp]
  dsimp only
  rw [g0, g0]
  have ts := tb_slot 0 t0 t1 [ofInt a.1, ofInt b.1] d.1 0 (by norm_num)
  have e : ∀ l : List W, slot l (2 ^ 0) 0 = (l[0]!, l[1]!) := fun _ => rfl
  rw [e, e, e, e, e] at ts
  have q1 := congrArg Prod.fst ts
  have q2 := congrArg Prod.snd ts
  dsimp only at q1 q2
  rw [q1, q2]
  rw [show ([ofInt a.1, ofInt b.1] : List W)[0]! = ofInt a.1 from rfl, show ([ofInt a.1, ofInt b.1] : List W)[1]! = ofInt b.1 from rfl]
  generalize cAdd _ _ = y
  rcases samp b.2 y.1 w0 with _ | c
  · rfl
  dsimp only
  rcases samp c.2 y.2 w0 with _ | c' <;> rfl

theorem nodes_drop1 (orig k : ℕ) (g00 g01 g11 X : List W) : (nodes orig (k + 1) g00 g01 g11 ++ X).drop (2 ^ (k + 1) + treesize k) =
    nodes orig k (polySplitFft (polyLdlFft g00 g01 g11 (k + 1)).2 (k + 1)).1 (polySplitFft (polyLdlFft g00 g01 g11 (k + 1)).2 (k + 1)).2 (polySplitFft (polyLdlFft g00 g01 g11 (k + 1)).2 (k + 1)).1 ++ X := by
  conv_lhs => unfold nodes
  dsimp only
  exact drop_two _ _ _ _ _ _ (ldl_length1 _ _ _ _) (nodes_length _ _ _ _ _)

theorem nodes_drop0 (orig k : ℕ) (g00 g01 g11 X : List W) : ∃ Y, (nodes orig (k + 1) g00 g01 g11 ++ X).drop (2 ^ (k + 1)) =
    nodes orig k (polySplitFft g00 (k + 1)).1 (polySplitFft g00 (k + 1)).2 (polySplitFft g00 (k + 1)).1 ++ Y := by
  conv => arg 1; intro Y; lhs; unfold nodes
  exact ⟨_, drop_one _ _ _ _ _ (ldl_length1 _ _ _ _)⟩

theorem nodes_head (orig k : ℕ) (g00 g01 g11 X : List W) : ∃ Y, nodes orig (k + 1) g00 g01 g11 ++ X = (polyLdlFft g00 g01 g11 (k + 1)).1 ++ Y := by
  conv => arg 1; intro Y; lhs; unfold nodes
  exact ⟨_, by dsimp only; rw [List.append_assoc, List.append_assoc]⟩

/-- On the tree of a Gram matrix, `ffSampling_fft` is the recursion of `do_sign_dyn` with the unrolled splits and merges. -/
theorem tree_by {σ : Type} (samp : Samp σ) (orig : ℕ) : ∀ (k : ℕ) (_ : 1 ≤ k) (g00 g01 g11 X t0 t1 : List W) (st : σ),
    ffSamplingTree samp k (nodes orig k g00 g01 g11 ++ X) t0 t1 st = ffSamplingBy splitTree mergeTree samp orig k t0 t1 g00 g01 g11 st
  | 0, h, _, _, _, _, _, _, _ => by omega
  | 1, _, g00, g01, g11, X, t0, t1, st => by
    rw [by1 samp orig g00 g01 g11 X]
    unfold ffSamplingTree
    generalize sample1 samp (nodes orig 1 g00 g01 g11 ++ X) _ _ st = o
    cases o <;> rfl
  | 2, _, g00, g01, g11, X, t0, t1, st => by
    have d8 := nodes_drop1 orig 1 g00 g01 g11 X
    obtain ⟨Y, d4⟩ := nodes_drop0 orig 1 g00 g01 g11 X
    obtain ⟨Z, hh⟩ := nodes_head orig 1 g00 g01 g11 X
    have hl := ldl_length1 g00 g01 g11 (1 + 1)
    rw [show 2 ^ (1 + 1) + treesize 1 = 8 from rfl] at d8
    rw [show 2 ^ (1 + 1) = 4 from rfl] at d4
    unfold ffSamplingTree ffSamplingBy
    dsimp only
    rw [show (2 : ℕ) = 1 + 1 from rfl, d8, d4, hh]
    generalize polyLdlFft g00 g01 g11 (1 + 1) = d at *
    have sp : ∀ f : List W, splitTree f (1 + 1) = ([(split4 (slot f (1 + 1) 0) (slot f (1 + 1) 1)).1.1, (split4 (slot f (1 + 1) 0) (slot f (1 + 1) 1)).1.2], [(split4 (slot f (1 + 1) 0) (slot f (1 + 1) 1)).2.1, (split4 (slot f (1 + 1) 0) (slot f (1 + 1) 1)).2.2]) := fun _ => rfl
    rw [sp t1]
    dsimp only
    rw [by1 samp orig _ _ _ X]
    have g2 : ∀ a b : W, ([a, b] : List W)[0]! = a ∧ ([a, b] : List W)[1]! = b := fun _ _ => ⟨rfl, rfl⟩
    rw [(g2 _ _).1, (g2 _ _).2, (g2 _ _).1, (g2 _ _).2]
    generalize split4 (slot t1 (1 + 1) 0) (slot t1 (1 + 1) 1) = w
    rcases sample1 samp (nodes orig 1 _ _ _ ++ X) w.1 w.2 st with _ | a
    · rfl
    dsimp only [Option.map_some]
    have mg : ∀ a b c e : W, mergeTree [a, b] [c, e] (1 + 1) = merge4 (a, b) (c, e) := fun _ _ _ _ => rfl
    rw [mg, sp]
    dsimp only
    rw [by1 samp orig _ _ _ Y]
    rw [(g2 _ _).1, (g2 _ _).2, (g2 _ _).1, (g2 _ _).2]
    generalize merge4 a.1 a.2.1 = z1
    have t0' := tb_slot 1 t0 t1 z1 d.1 0 (by norm_num)
    have t1' := tb_slot 1 t0 t1 z1 d.1 1 (by norm_num)
    have s0 := slot_append d.1 Z 1 hl 0 (by norm_num)
    have s1 := slot_append d.1 Z 1 hl 1 (by norm_num)
    rw [show 2 ^ 1 = 1 + 1 from rfl] at t0' t1' s0 s1
    rw [t0', t1', s0, s1]
    generalize split4 _ _ = v
    rcases sample1 samp (nodes orig 1 _ _ _ ++ Y) v.1 v.2 a.2.2 with _ | b
    · rfl
    · rfl
  | k + 3, _, g00, g01, g11, X, t0, t1, st => by
    have d1 := nodes_drop1 orig (k + 2) g00 g01 g11 X
    obtain ⟨Y, d0⟩ := nodes_drop0 orig (k + 2) g00 g01 g11 X
    obtain ⟨Z, hh⟩ := nodes_head orig (k + 2) g00 g01 g11 X
    have hl := ldl_length1 g00 g01 g11 (k + 2 + 1)
    rw [show k + 3 = k + 2 + 1 from rfl]
    unfold ffSamplingTree
    rw [show k + 3 = k + 2 + 1 from rfl]
    dsimp only
    rw [d1, d0, hh]
    conv_rhs => unfold ffSamplingBy
    dsimp only
    generalize polyLdlFft g00 g01 g11 (k + 2 + 1) = d at *
    have sp : ∀ f : List W, splitTree f (k + 2 + 1) = polySplitFft f (k + 2 + 1) := fun f => if_neg (by omega)
    have mg : ∀ f g : List W, mergeTree f g (k + 2 + 1) = polyMergeFft f g (k + 2 + 1) := fun f g => if_neg (by omega)
    rw [sp, tree_by samp orig (k + 2) (by omega)]
    generalize polySplitFft t1 (k + 2 + 1) = x1
    rcases ffSamplingBy splitTree mergeTree samp orig (k + 2) x1.1 x1.2 _ _ _ st with _ | a
    · rfl
    dsimp only
    rw [tree_by samp orig (k + 2) (by omega), mg, sp, polyMul_append _ _ _ _ hl, polyAdd_comm, polyMul_comm]
    rcases ffSamplingBy splitTree mergeTree samp orig (k + 2) _ _ _ _ _ a.2.2 with _ | b
    · rfl
    · dsimp only; rw [mg]

/-- With the routines of `do_sign_dyn` it is the recursion of `do_sign_dyn`. -/
theorem by_dyn {σ : Type} (samp : Samp σ) (orig : ℕ) : ∀ (k : ℕ) (t0 t1 g00 g01 g11 : List W) (st : σ), ffSamplingBy polySplitFft polyMergeFft samp orig k t0 t1 g00 g01 g11 st = ffSampling samp orig k t0 t1 g00 g01 g11 st
  | 0, _, _, _, _, _, _ => rfl
  | k + 1, t0, t1, g00, g01, g11, st => by
    unfold ffSamplingBy ffSampling
    dsimp only
    rw [by_dyn samp orig k]
    generalize ffSampling samp orig k _ _ _ _ _ st = o
    cases o with
    | none => rfl
    | some a =>
      dsimp only
      rw [by_dyn samp orig k]
      generalize ffSampling samp orig k _ _ _ _ _ a.2.2 = q
      cases q <;> rfl

end Verif.CRef.SignTree
