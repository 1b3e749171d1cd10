import Verif.CRef.SignTreeRun
import Verif.CRef.SignTreeProps
import Verif.CRef.CentreSign

/-! # C116: the centres in the tree signer are in range, so that every draw is rejection sampling -/

namespace Verif.CRef.SignTree

open Verif.CRef.Kg Verif.CRef Verif.CRef.Fpr Verif.CRef.Fft Verif.CRef.Orth Verif.CRef.SignDyn Verif.Falcon Verif.CRef.SignSampler Verif.CRef.Prng

/-- Agreement (`C109_agree`) for any accurate way of splitting and merging. -/
theorem agree_by (split : List W → ℕ → List W × List W) (merge : List W → List W → ℕ → List W) (acc : Accurate split merge) {τ : Type} (k : ℕ) (h1 : 1 ≤ k) (h2 : k ≤ 10) (f g F G : List ℤ) (h : List ℕ) (key : IsFalconKey (2 ^ k) (2 ^ (maxFgBits[k]! - 1) - 1) f g F G h) (r1 r2 : ℕ → ℝ) (hr : IsOrth k f g r1 r2)
    (hK : sqNorm k r1 r2 ≤ 16818) (samp samp' : Samp τ) (near : Near k samp') (hag : ∀ st mu isigma, Suits k isigma → Centre mu → samp st mu isigma = samp' st mu isigma)
    (hm : List ℕ) (hl : hm.length = 2 ^ k) (hq : ∀ x ∈ hm, x < 12289) (st : τ) : doSignBy split merge samp f g F G hm k st = doSignBy split merge samp' f g F G hm k st := by
  obtain ⟨s, rfl⟩ : ∃ s, k = s + 1 := ⟨k - 1, by omega⟩
  have hs : s ≤ 9 := by omega
  obtain ⟨gr, hgr⟩ : ∃ gr, gram (basis f g F G (s + 1)) (s + 1) = gr := ⟨_, rfl⟩
  obtain ⟨N1, N2⟩ := key_nodes s hs f g F G key.ntru key.fBound key.gBound key.FBound key.GBound key.norm r1 r2 hr hK gr hgr.symm
  have tg := target_slots s hs f g F G key.ntru.1 key.ntru.2.2.1 key.fBound key.FBound hm hl hq
  obtain ⟨t, ht⟩ : ∃ t, target (basis f g F G (s + 1)) hm (s + 1) = t := ⟨_, rfl⟩
  rw [ht] at tg
  have u := uu_num
  have p9 : (2 : ℝ) ^ s ≤ 2 ^ 9 := pow_le_pow_right₀ (by norm_num) hs
  have s9 : (s : ℝ) ≤ 9 := by exact_mod_cast hs
  have c2 : (1 + 2 * (1375 / 10 ^ 8 : ℝ)) ^ s ≤ 1 + 2477 / 10 ^ 7 := pow_small _ _ s hs (by norm_num) (by norm_num)
  have c1 : (1 + 2 * (2 / 10 ^ 8 : ℝ)) ^ s ≤ 1 + 1 / 10 ^ 6 := pow_small _ _ s hs (by norm_num) (by norm_num)
  have sA : (2 : ℝ) ^ 29 + 2 ^ 20 + s * 2 ^ 24 ≤ 2 ^ 30 := by
    have := mul_le_mul_of_nonneg_right s9 (show (0 : ℝ) ≤ 2 ^ 24 by norm_num)
    have n : (2 : ℝ) ^ 29 + 2 ^ 20 + 9 * 2 ^ 24 ≤ 2 ^ 30 := by norm_num
    linarith
  have sB : (2 : ℝ) ^ 29 + 2 ^ 28 + s * 2 ^ 24 ≤ 2 ^ 30 := by
    have := mul_le_mul_of_nonneg_right s9 (show (0 : ℝ) ≤ 2 ^ 24 by norm_num)
    have n : (2 : ℝ) ^ 29 + 2 ^ 28 + 9 * 2 ^ 24 ≤ 2 ^ 30 := by norm_num
    linarith
  have near' : ∀ st mu is r, Suits (s + 1) is → Centre mu → samp' st mu is = some r → |(r.1 : ℝ) - val mu| ≤ 20 := fun st mu is r a b c => near st mu is r.1 r.2 a b c
  have T2 := tree2_by split merge acc samp samp' (Suits (s + 1)) hag near' (s + 1) (126 / 1000) (1375 / 10 ^ 8) _ 17 (2 ^ 24) _ (by norm_num) (by norm_num) (by norm_num) (by norm_num) (by norm_num) rfl
    (by rw [u]; norm_num) (by norm_num) rfl s hs _ _ _ _ _ _ (by norm_num) N2 (by norm_num at c2 ⊢; linarith) (by norm_num at c2 ⊢; linarith) (by rw [u]; norm_num at p9 ⊢; linarith)
    (fun x x0 y1 y2 => leaf_suits (s + 1) h1 h2 _ _ _ (by norm_num) x x0 _ c2 (by norm_num) (by norm_num) (by norm_num) y1 y2) (by norm_num at c2 ⊢; linarith) t.2 (2 ^ 29 + 2 ^ 20) sA
    (fun p hp => (tg p hp).2.1) (fun p hp => (tg p hp).2.2) st
  have Gm := fun p hp => key_gamma s hs f g key.ntru.1 key.ntru.2.1 key.norm r1 r2 hr hK p hp
  have S0 : ∀ z : List W, (∀ p < 2 ^ s, Weak (slot z (2 ^ s) p) ∧ val (slot (polyLdlFft gr.1 gr.2.1 gr.2.2 (s + 1)).2 (2 ^ s) p).1 * ‖cv (slot t.2 (2 ^ s) p) - cv (slot z (2 ^ s) p)‖ ^ 2 ≤ 5 ^ s * (800 * 16823)) →
      ∀ p < 2 ^ s, Weak (slot (polyAdd t.1 (polyMulFft (polyLdlFft gr.1 gr.2.1 gr.2.2 (s + 1)).1 (Fft.polySub t.2 z (s + 1)) (s + 1)) (s + 1)) (2 ^ s) p) ∧
        ‖cv (slot (polyAdd t.1 (polyMulFft (polyLdlFft gr.1 gr.2.1 gr.2.2 (s + 1)).1 (Fft.polySub t.2 z (s + 1)) (s + 1)) (s + 1)) (2 ^ s) p)‖ ≤ 2 ^ 29 + 2 ^ 28 := fun z hz p hp => by
    have K := key_slot s hs f g F _ key.ntru key.fBound key.gBound key.FBound key.GBound p hp _ rfl (by have := (Gm p hp).1; linarith) (by have := (Gm p hp).2; norm_num at this ⊢; linarith) gr hgr.symm
    have L := key_mult s hs f g F _ key.ntru key.fBound key.gBound key.FBound key.GBound p hp _ rfl (by have := (Gm p hp).1; linarith) (by have := (Gm p hp).2; norm_num at this ⊢; linarith) gr hgr.symm
    rw [(polyAdd_slot s _ _).2 p hp, polyMul_slot s _ _ p hp, polySub_slot s _ _ p hp]
    have Gp := Gm p hp
    generalize gramAt (s + 1) f g (root (s + 1) p) = γ at *
    have γ0 : 0 < γ := by linarith
    have y1 : 1753 / 100 ≤ 12289 ^ 2 / γ := by rw [le_div_iff₀ γ0]; have := Gp.2; norm_num at this ⊢; linarith
    have lo := N2.lo p hp
    refine root_first _ _ _ _ γ _ (tg p hp).1.1 (tg p hp).2.1 (hz p hp).1 (tg p hp).1.2 (tg p hp).2.2 (by linarith) L (by linarith) ?_ ((hz p hp).2.trans ?_)
    · have := (abs_le.1 K.2.2.2.2.2.1).1
      generalize (12289 : ℝ) ^ 2 / γ = y at *
      norm_num at this y1 ⊢; linarith
    · exact mul_le_mul_of_nonneg_right (pow_le_pow_right₀ (by norm_num) hs) (by norm_num)
  have T1 := fun z hz => tree2_by split merge acc samp samp' (Suits (s + 1)) hag near' (s + 1) (1 / 2 ^ 13) (2 / 10 ^ 8) _ 17 (2 ^ 24) _ (by norm_num) (by norm_num) (by norm_num) (by norm_num) (by norm_num) rfl
    (by rw [u]; norm_num) (by norm_num) rfl s hs _ _ _ _ _ _ (by norm_num) N1 (by norm_num at c1 ⊢; linarith) (by norm_num at c1 ⊢; linarith) (by rw [u]; norm_num at p9 ⊢; linarith)
    (fun x x0 y1 y2 => leaf_suits (s + 1) h1 h2 _ _ _ (by norm_num) x x0 _ c1 (by norm_num) (by norm_num) (by norm_num) y1 y2) (by norm_num at c1 ⊢; linarith)
    (polyAdd t.1 (polyMulFft (polyLdlFft gr.1 gr.2.1 gr.2.2 (s + 1)).1 (Fft.polySub t.2 z (s + 1)) (s + 1)) (s + 1)) (2 ^ 29 + 2 ^ 28) sB
    (fun p hp => (S0 z hz p hp).1) (fun p hp => (S0 z hz p hp).2)
  have main : ffSamplingBy split merge samp (s + 1) (s + 1) t.1 t.2 gr.1 gr.2.1 gr.2.2 st = ffSamplingBy split merge samp' (s + 1) (s + 1) t.1 t.2 gr.1 gr.2.1 gr.2.2 st := by
    unfold ffSamplingBy
    dsimp only
    rw [T2.1]
    cases q : ffSamplingBy split merge samp' (s + 1) s (split t.2 (s + 1)).1 (split t.2 (s + 1)).2 (polySplitFft (polyLdlFft gr.1 gr.2.1 gr.2.2 (s + 1)).2 (s + 1)).1
      (polySplitFft (polyLdlFft gr.1 gr.2.1 gr.2.2 (s + 1)).2 (s + 1)).2 (polySplitFft (polyLdlFft gr.1 gr.2.1 gr.2.2 (s + 1)).2 (s + 1)).1 st with
    | none => rfl
    | some a =>
      dsimp only
      rw [(T1 _ (T2.2 a q) a.2.2).1]
  unfold doSignBy
  dsimp only
  rw [hgr, ht, main]

/-- **C116** (agreement): for every such key, every message point and every state, an attempt to sign with the expanded key depends only on what the sampler does for deviations that suit it and centres in range. -/
theorem C116_agree {τ : Type} (k : ℕ) (h1 : 1 ≤ k) (h2 : k ≤ 10) (f g F G : List ℤ) (h : List ℕ) (key : IsFalconKey (2 ^ k) (2 ^ (maxFgBits[k]! - 1) - 1) f g F G h) (r1 r2 : ℕ → ℝ) (hr : IsOrth k f g r1 r2)
    (hK : sqNorm k r1 r2 ≤ 16818) (samp samp' : Samp τ) (near : Near k samp') (hag : ∀ st mu isigma, Suits k isigma → Centre mu → samp st mu isigma = samp' st mu isigma)
    (hm : List ℕ) (hl : hm.length = 2 ^ k) (hq : ∀ x ∈ hm, x < 12289) (st : τ) : doSignTree samp (expandPrivkey f g F G k) hm k st = doSignTree samp' (expandPrivkey f g F G k) hm k st := by
  rw [C113_refine _ f g F G hm k h1, C113_refine _ f g F G hm k h1]
  exact agree_by splitTree mergeTree accurate_tree k h1 h2 f g F G h key r1 r2 hr hK samp samp' near hag hm hl hq st

theorem watched_by (split : List W → ℕ → List W × List W) (merge : List W → List W → ℕ → List W) {τ : Type} (samp : Samp (τ × List (W × W))) (P : W × W → Prop) (hp : ∀ st mu is r, samp st mu is = some r → (∀ w ∈ st.2, P w) → ∀ w ∈ r.2.2, P w) (orig : ℕ) :
    ∀ (k : ℕ) (t0 t1 g00 g01 g11 : List W) (st : τ × List (W × W)) (r : List W × List W × (τ × List (W × W))), ffSamplingBy split merge samp orig k t0 t1 g00 g01 g11 st = some r → (∀ w ∈ st.2, P w) → ∀ w ∈ r.2.2.2, P w := by
  intro k
  induction k with
  | zero =>
    intro t0 t1 g00 g01 g11 st r h hst
    unfold ffSamplingBy at h
    cases e1 : samp st t0[0]! (mul (sqrt g00[0]!) invSigma[orig]!) with
    | none => rw [e1] at h; cases h
    | some a =>
      rw [e1] at h
      dsimp only at h
      cases e2 : samp a.2 t1[0]! (mul (sqrt g00[0]!) invSigma[orig]!) with
      | none => rw [e2] at h; cases h
      | some b =>
        rw [e2] at h
        dsimp only at h
        cases h
        exact hp _ _ _ _ e2 (hp _ _ _ _ e1 hst)
  | succ k ih =>
    intro t0 t1 g00 g01 g11 st r h hst
    unfold ffSamplingBy at h
    dsimp only at h
    split at h
    · cases h
    · rename_i a e1
      split at h
      · cases h
      · rename_i b e2
        cases h
        have := ih _ _ _ _ _ _ _ e2 (ih _ _ _ _ _ _ _ e1 hst)
        exact this

/-- **C116**: for every Falcon key of degree `2^k` from 2 to 1024 whose orthogonalized vector has squared norm at most 16818, every message point, every sampler that answers near the centre and every state: each
centre that an attempt to sign with the expanded key passes to the sampler is in range, and each deviation suits. -/
theorem C116_centres {τ : Type} (k : ℕ) (h1 : 1 ≤ k) (h2 : k ≤ 10) (f g F G : List ℤ) (h : List ℕ) (key : IsFalconKey (2 ^ k) (2 ^ (maxFgBits[k]! - 1) - 1) f g F G h) (r1 r2 : ℕ → ℝ) (hr : IsOrth k f g r1 r2)
    (hK : sqNorm k r1 r2 ≤ 16818) (samp : Samp τ) (near : Near k samp) (hm : List ℕ) (hl : hm.length = 2 ^ k) (hq : ∀ x ∈ hm, x < 12289) (st st' : τ) (r : Option (List ℤ)) (l : List (W × W))
    (run : doSignTree (watched samp) (expandPrivkey f g F G k) hm k (st, []) = some (r, (st', l))) : ∀ c ∈ l, Centre c.1 ∧ Suits k c.2 := by
  classical
  have nw : Near k fun st mu is => if Centre mu ∧ Suits k is then watched samp st mu is else none := by
    intro s mu is z s' hs hc e
    simp only [hc, hs, and_self, if_true] at e
    unfold watched at e
    obtain ⟨a, ha, e⟩ := Option.map_eq_some_iff.1 e
    simp only [Prod.mk.injEq] at e
    rw [← e.1]
    exact near _ _ _ a.1 a.2 hs hc ha
  rw [C113_refine _ f g F G hm k h1, agree_by splitTree mergeTree accurate_tree k h1 h2 f g F G h key r1 r2 hr hK (watched samp) (fun st mu is => if Centre mu ∧ Suits k is then watched samp st mu is else none) nw (fun st mu is hs hc => by rw [if_pos ⟨hc, hs⟩]) hm hl hq] at run
  unfold doSignBy at run
  dsimp only at run
  split at run
  · cases run
  · rename_i z e
    have := watched_by splitTree mergeTree _ (fun c => Centre c.1 ∧ Suits k c.2) (fun st mu is r h hst => by
      split at h
      · rename_i hs
        unfold watched at h
        obtain ⟨a, ha, rfl⟩ := Option.map_eq_some_iff.1 h
        intro w hw
        rcases List.mem_append.1 hw with hw | hw
        · exact hst w hw
        · rw [List.mem_singleton.1 hw]; exact hs
      · cases h) k k _ _ _ _ _ _ _ e (fun w hw => by cases hw)
    simp only [Option.some.injEq, Prod.mk.injEq] at run
    rw [run.2] at this
    exact this

/-- Recording changes nothing. -/
theorem watched_same_by (split : List W → ℕ → List W × List W) (merge : List W → List W → ℕ → List W) {τ : Type} (samp : Samp τ) (orig : ℕ) : ∀ (k : ℕ) (t0 t1 g00 g01 g11 : List W) (st : τ) (l : List (W × W)),
    (ffSamplingBy split merge (watched samp) orig k t0 t1 g00 g01 g11 (st, l)).map (fun r => (r.1, r.2.1, r.2.2.1)) = ffSamplingBy split merge samp orig k t0 t1 g00 g01 g11 st := by
  intro k
  induction k with
  | zero =>
    intro t0 t1 g00 g01 g11 st l
    unfold ffSamplingBy watched
    dsimp only
    cases e1 : samp st t0[0]! (mul (sqrt g00[0]!) invSigma[orig]!) with
    | none => rfl
    | some a =>
      dsimp only [Option.map]
      cases e2 : samp a.2 t1[0]! (mul (sqrt g00[0]!) invSigma[orig]!) with
      | none => rfl
      | some b => rfl
  | succ k ih =>
    intro t0 t1 g00 g01 g11 st l
    unfold ffSamplingBy
    dsimp only
    rw [← ih _ _ _ _ _ st l]
    generalize ffSamplingBy split merge (watched samp) orig k _ _ _ _ _ (st, l) = o
    cases o with
    | none => rfl
    | some a =>
      dsimp only [Option.map]
      rw [← ih _ _ _ _ _ a.2.2.1 a.2.2.2]
      generalize ffSamplingBy split merge (watched samp) orig k _ _ _ _ _ (a.2.2.1, a.2.2.2) = o
      cases o with
      | none => rfl
      | some b => rfl

/-- **C116** (the record does not disturb the signer). -/
theorem C116_watched {τ : Type} (samp : Samp τ) (f g F G : List ℤ) (hm : List ℕ) (k : ℕ) (h1 : 1 ≤ k) (st : τ) :
    (doSignTree (watched samp) (expandPrivkey f g F G k) hm k (st, [])).map (fun r => (r.1, r.2.1)) = doSignTree samp (expandPrivkey f g F G k) hm k st := by
  rw [C113_refine _ f g F G hm k h1, C113_refine _ f g F G hm k h1]
  unfold doSignBy
  dsimp only
  rw [← watched_same_by splitTree mergeTree samp k k _ _ _ _ _ st []]
  split
  · rename_i e; rw [e]; rfl
  · rename_i a e; rw [e]; rfl

/-- Samplers that agree on an invariant of the state. -/
theorem ff_inv_by (split : List W → ℕ → List W × List W) (merge : List W → List W → ℕ → List W) {τ : Type} (samp samp' : Samp τ) (I : τ → Prop) (hag : ∀ st mu is, I st → samp st mu is = samp' st mu is) (keep : ∀ st mu is r, I st → samp' st mu is = some r → I r.2) (orig : ℕ) :
    ∀ (k : ℕ) (t0 t1 g00 g01 g11 : List W) (st : τ), I st → ffSamplingBy split merge samp orig k t0 t1 g00 g01 g11 st = ffSamplingBy split merge samp' orig k t0 t1 g00 g01 g11 st ∧
      ∀ r, ffSamplingBy split merge samp' orig k t0 t1 g00 g01 g11 st = some r → I r.2.2 := by
  intro k
  induction k with
  | zero =>
    intro t0 t1 g00 g01 g11 st hI
    unfold ffSamplingBy
    rw [hag st _ _ hI]
    cases e1 : samp' st t0[0]! (mul (sqrt g00[0]!) invSigma[orig]!) with
    | none => exact ⟨rfl, fun r h => by cases h⟩
    | some a =>
      have Ia := keep _ _ _ _ hI e1
      dsimp only
      rw [hag a.2 _ _ Ia]
      refine ⟨rfl, fun r h => ?_⟩
      cases e2 : samp' a.2 t1[0]! (mul (sqrt g00[0]!) invSigma[orig]!) with
      | none => rw [e2] at h; cases h
      | some b =>
        rw [e2] at h
        cases h
        exact keep _ _ _ _ Ia e2
  | succ k ih =>
    intro t0 t1 g00 g01 g11 st hI
    unfold ffSamplingBy
    dsimp only
    have i1 := ih (split t1 (k + 1)).1 (split t1 (k + 1)).2 (polySplitFft (polyLdlFft g00 g01 g11 (k + 1)).2 (k + 1)).1 (polySplitFft (polyLdlFft g00 g01 g11 (k + 1)).2 (k + 1)).2
      (polySplitFft (polyLdlFft g00 g01 g11 (k + 1)).2 (k + 1)).1 st hI
    rw [i1.1]
    have i2 := i1.2
    generalize ffSamplingBy split merge samp' orig k (split t1 (k + 1)).1 (split t1 (k + 1)).2 (polySplitFft (polyLdlFft g00 g01 g11 (k + 1)).2 (k + 1)).1 (polySplitFft (polyLdlFft g00 g01 g11 (k + 1)).2 (k + 1)).2
      (polySplitFft (polyLdlFft g00 g01 g11 (k + 1)).2 (k + 1)).1 st = o at *
    cases o with
    | none => exact ⟨rfl, fun r h => by cases h⟩
    | some a =>
      dsimp only
      have Ia := i2 a rfl
      refine ⟨by rw [(ih _ _ _ _ _ a.2.2 Ia).1], fun r h => ?_⟩
      split at h
      · cases h
      · rename_i b e
        cases h
        exact (ih _ _ _ _ _ a.2.2 Ia).2 b e

/-- **C116** (draws): for each degree there are thresholds of the discrete Gaussian distribution, within `2^-41`, such that for every Falcon key whose orthogonalized vector has squared norm at most 16818, every
message point and every state of the generator, an attempt to sign with the expanded key is the attempt in which each integer is drawn by rejection sampling with these thresholds. -/
theorem C116_rejection (k : ℕ) (h1 : 1 ≤ k) (h2 : k ≤ 10) : ∃ m T, Gaussian k m T ∧ ∀ (f g F G : List ℤ) (h : List ℕ) (_ : IsFalconKey (2 ^ k) (2 ^ (maxFgBits[k]! - 1) - 1) f g F G h) (r1 r2 : ℕ → ℝ) (_ : IsOrth k f g r1 r2)
    (_ : sqNorm k r1 r2 ≤ 16818) (hm : List ℕ) (_ : hm.length = 2 ^ k) (_ : ∀ x ∈ hm, x < 12289) (sfuel : ℕ) (p : Prng) (_ : Live p),
    doSignTree (zSampler k sfuel) (expandPrivkey f g F G k) hm k p = doSignTree (rejection m T sfuel) (expandPrivkey f g F G k) hm k p := by
  classical
  have C : ∀ mu is, ∃ (m : ℤ) (T : ℕ → ℕ → ℕ), Centre mu → Suits k is → (0 ≤ val mu - m ∧ val mu - m ≤ 1 ∧
      (∀ z0 b, z0 ≤ 18 → b < 2 → T z0 b < 2 ^ 64 ∧
        |(T z0 b : ℝ) / 2 ^ 64 - val is * val sigmaMin[k]! * Real.exp (-(((m + candidate z0 b : ℤ) - val mu) ^ 2 * val is ^ 2 / 2 - z0 ^ 2 / (2 * 1.8205 ^ 2)))| ≤ 1 / 2 ^ 41) ∧
      ∀ fuel p, Live p → sampler sigmaMin[k]! mu is fuel p = trials m T fuel p) := fun mu is => by
    by_cases hc : Centre mu ∧ Suits k is
    · obtain ⟨m, T, h⟩ := C98_sampler sigmaMin[k]! mu is hc.1.1 hc.1.2 hc.2.1 hc.2.2.1 hc.2.2.2.1 hc.2.2.2.2.1 hc.2.2.2.2.2
      exact ⟨m, T, fun _ _ => h⟩
    · exact ⟨0, fun _ _ => 0, fun a b => (hc ⟨a, b⟩).elim⟩
  choose m T hmT using C
  refine ⟨m, T, fun mu is hc hs => ⟨(hmT mu is hc hs).1, (hmT mu is hc hs).2.1, (hmT mu is hc hs).2.2.1⟩, ?_⟩
  intro f g F G h key r1 r2 hr hK hm hl hq sfuel p hp
  rw [C113_refine _ f g F G hm k h1, C113_refine _ f g F G hm k h1]
  -- first the questions that do not occur
  have e1 : ∀ st, doSignBy splitTree mergeTree (zSampler k sfuel) f g F G hm k st = doSignBy splitTree mergeTree (fun p mu is => if Centre mu ∧ Suits k is then zSampler k sfuel p mu is else rejection m T sfuel p mu is) f g F G hm k st := fun st =>
    agree_by splitTree mergeTree accurate_tree k h1 h2 f g F G h key r1 r2 hr hK _ _ (fun st mu is z st' hs hc e => by
      simp only [hc, hs, and_self, if_true] at e
      exact C109_near k sfuel st mu is z st' hs hc e) (fun st mu is hs hc => by rw [if_pos ⟨hc, hs⟩]) hm hl hq st
  rw [e1]
  have e2 := ff_inv_by splitTree mergeTree (fun p mu is => if Centre mu ∧ Suits k is then zSampler k sfuel p mu is else rejection m T sfuel p mu is) (rejection m T sfuel) Live (fun st mu is hst => by
      split
      · rename_i hc; exact (hmT mu is hc.1 hc.2).2.2.2 sfuel st hst
      · rfl) (fun st mu is r hst e => trials_live _ _ _ _ r.2 r.1 hst e) k k
  unfold doSignBy
  dsimp only
  rw [(e2 _ _ _ _ _ p hp).1]

/-- **C116** (`sign_tree`): for each degree there are such thresholds that for every such key, every message point, every SHAKE context and every earlier content of the generator's buffers, the signature with the
expanded key is the vector of the first attempt that is short enough, each attempt drawing its integers by rejection sampling with these thresholds. -/
theorem C116_sign_tree (k : ℕ) (h1 : 1 ≤ k) (h2 : k ≤ 10) : ∃ m T, Gaussian k m T ∧ ∀ (f g F G : List ℤ) (h : List ℕ) (_ : IsFalconKey (2 ^ k) (2 ^ (maxFgBits[k]! - 1) - 1) f g F G h) (r1 r2 : ℕ → ℝ) (_ : IsOrth k f g r1 r2)
    (_ : sqNorm k r1 r2 ≤ 16818) (hm : List ℕ) (_ : hm.length = 2 ^ k) (_ : ∀ x ∈ hm, x < 12289) (sfuel fuel : ℕ) (buf : ℕ → Bytes) (_ : ∀ i, (buf i).length = 512) (c c' : Shake.Ctx) (s : List ℤ),
    signTree sfuel buf (expandPrivkey f g F G k) hm k fuel 0 c = some (s, c') ↔ ∃ j < fuel, (∀ i < j, ∃ p, doSignTree (rejection m T sfuel) (expandPrivkey f g F G k) hm k (attempt buf 0 c i).1 = some (none, p)) ∧
      (∃ p, doSignTree (rejection m T sfuel) (expandPrivkey f g F G k) hm k (attempt buf 0 c j).1 = some (some s, p)) ∧ c' = (attempt buf 0 c j).2 := by
  obtain ⟨m, T, hG, H⟩ := C116_rejection k h1 h2
  refine ⟨m, T, hG, fun f g F G h key r1 r2 hr hK hm hl hq sfuel fuel buf hb c c' s => ?_⟩
  rw [C113_loop]
  have e : ∀ i, doSignTree (zSampler k sfuel) (expandPrivkey f g F G k) hm k (attempt buf 0 c i).1 = doSignTree (rejection m T sfuel) (expandPrivkey f g F G k) hm k (attempt buf 0 c i).1 := fun i =>
    H f g F G h key r1 r2 hr hK hm hl hq sfuel _ (attempt_live buf hb i 0 c)
  simp only [e]

/-! ## A concrete case: the key of degree 2 of `exKey`, signing with its expanded key -/

set_option maxRecDepth 100000 in
/-- The questions of an attempt, with a sampler that answers near the centre (`CentreSign`): four centres. -/
example : ∃ r l, doSignTree (watched fun (u : Unit) mu _ => some ((center mu).toInt + 3, u)) (expandPrivkey [-56, 55] [-74, -25] [99, -16] [-53, -29] 1) [119, 0] 1 ((), []) = some (r, ((), l)) ∧ l.length = 4 := by
  rw [C113_degree2]
  exact ⟨_, _, rfl, rfl⟩

end Verif.CRef.SignTree
