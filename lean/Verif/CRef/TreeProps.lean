import Verif.CRef.TreeKey
import Verif.CRef.SignDynApi
import Verif.CRef.OrthEx

/-! # C108: the deviations the signer passes to the sampler suit it -/

namespace Verif.CRef.Fft

open Verif.CRef.Kg Verif.CRef Verif.CRef.Fpr Verif.CRef.Orth Verif.CRef.SignDyn Verif.Falcon

/-- Ten levels of factors. -/
theorem pow_small (c t : ℝ) (s : ℕ) (hs : s ≤ 9) (h1 : 1 ≤ c) (h : c ^ 9 ≤ t) : c ^ s ≤ t := (pow_le_pow_right₀ h1 hs).trans h

/-- The leaf condition. -/
theorem leaf_suits (k : ℕ) (h1 : 1 ≤ k) (h2 : k ≤ 10) (t A H : ℝ) (ht : 0 ≤ H) (x : W) (x0 : 0 < val x) (cs : ℝ) (hc : cs ≤ t) (hA0 : 0 ≤ A) (hA : t * A ≤ 16822.31) (hH : t * H * 8600 ≤ 1)
    (y1 : 1 / val x ≤ cs * H) (y2 : val x ≤ cs * A) : Suits k (mul (sqrt x) invSigma[k]!) := by
  refine suits k h1 h2 x ?_ (y2.trans ((mul_le_mul_of_nonneg_right hc hA0).trans hA))
  have h := y1.trans (mul_le_mul_of_nonneg_right hc ht)
  rw [div_le_iff₀ x0] at h
  nlinarith

/-- **C108** (agreement): for every Falcon key of degree `2^k` from 2 to 1024 whose orthogonalized vector has squared norm at most 16818, every message point and every state, an attempt to sign depends only on what the sampler does for deviations that suit it. -/
theorem C108_agree {τ : Type} (k : ℕ) (h1 : 1 ≤ k) (h2 : k ≤ 10) (f g F G : List ℤ) (h : List ℕ) (key : IsFalconKey (2 ^ k) (2 ^ (maxFgBits[k]! - 1) - 1) f g F G h) (r1 r2 : ℕ → ℝ) (hr : IsOrth k f g r1 r2)
    (hK : sqNorm k r1 r2 ≤ 16818) (samp samp' : Samp τ) (hag : ∀ st mu isigma, Suits k isigma → samp st mu isigma = samp' st mu isigma) (hm : List ℕ) (st : τ) :
    doSignDyn samp f g F G hm k st = doSignDyn samp' f g F G hm k st := by
  obtain ⟨s, rfl⟩ : ∃ s, k = s + 1 := ⟨k - 1, by omega⟩
  have hs : s ≤ 9 := by omega
  obtain ⟨gr, hgr⟩ : ∃ gr, gram (basis f g F G (s + 1)) (s + 1) = gr := ⟨_, rfl⟩
  obtain ⟨N1, N2⟩ := key_nodes s hs f g F G key.ntru key.fBound key.gBound key.FBound key.GBound key.norm r1 r2 hr hK gr hgr.symm
  have u := uu_num
  have p9 : (2 : ℝ) ^ s ≤ 2 ^ 9 := pow_le_pow_right₀ (by norm_num) hs
  -- the first half: from the LDL decomposition
  have c2 : (1 + 2 * (1375 / 10 ^ 8 : ℝ)) ^ s ≤ 1 + 2477 / 10 ^ 7 := pow_small _ _ s hs (by norm_num) (by norm_num)
  have c1 : (1 + 2 * (2 / 10 ^ 8 : ℝ)) ^ s ≤ 1 + 1 / 10 ^ 6 := pow_small _ _ s hs (by norm_num) (by norm_num)
  have T2 := tree samp samp' (Suits (s + 1)) (fun st mu is hs => hag st mu is hs) (s + 1) (126 / 1000) (1375 / 10 ^ 8) _ 17 (2 ^ 24) _ (by norm_num) (by norm_num) (by norm_num) (by norm_num) (by norm_num) rfl
    (by rw [u]; norm_num) (by norm_num) rfl s hs _ _ _ _ _ _ (by norm_num) N2 (by norm_num at *; linarith) (by norm_num at *; linarith) (by rw [u]; norm_num at *; linarith)
    fun x x0 y1 y2 => leaf_suits (s + 1) h1 h2 _ _ _ (by norm_num) x x0 _ c2 (by norm_num) (by norm_num) (by norm_num) y1 y2
  have T1 := tree samp samp' (Suits (s + 1)) (fun st mu is hs => hag st mu is hs) (s + 1) (1 / 2 ^ 13) (2 / 10 ^ 8) _ 17 (2 ^ 24) _ (by norm_num) (by norm_num) (by norm_num) (by norm_num) (by norm_num) rfl
    (by rw [u]; norm_num) (by norm_num) rfl s hs _ _ _ _ _ _ (by norm_num) N1 (by norm_num at *; linarith) (by norm_num at *; linarith) (by rw [u]; norm_num at *; linarith)
    fun x x0 y1 y2 => leaf_suits (s + 1) h1 h2 _ _ _ (by norm_num) x x0 _ c1 (by norm_num) (by norm_num) (by norm_num) y1 y2
  unfold doSignDyn
  dsimp only
  rw [hgr]
  unfold ffSampling
  dsimp only
  rw [T2]
  simp only [T1]

/-- The record grows by suiting entries. -/
theorem spied_tree {τ : Type} (samp : Samp (τ × List W)) (P : W → Prop) (hp : ∀ st mu is r, samp st mu is = some r → (∀ w ∈ st.2, P w) → ∀ w ∈ r.2.2, P w) (orig : ℕ) :
    ∀ (k : ℕ) (t0 t1 g00 g01 g11 : List W) (st : τ × List W) (r : List W × List W × (τ × List W)), ffSampling samp orig k t0 t1 g00 g01 g11 st = some r → (∀ w ∈ st.2, P w) → ∀ w ∈ r.2.2.2, P w := by
  intro k
  induction k with
  | zero =>
    intro t0 t1 g00 g01 g11 st r h hst
    unfold ffSampling at h
    dsimp only at h
    cases e1 : samp st t0[0]! (mul (sqrt g00[0]!) invSigma[orig]!) with
    | none => rw [e1] at h; cases h
    | some a =>
      rw [e1] at h
      dsimp only at h
      cases e2 : samp a.2 t1[0]! (mul (sqrt g00[0]!) invSigma[orig]!) with
      | none => rw [e2] at h; cases h
      | some b =>
        rw [e2] at h
        dsimp only at h
        cases h
        exact hp _ _ _ _ e2 (hp _ _ _ _ e1 hst)
  | succ k ih =>
    intro t0 t1 g00 g01 g11 st r h hst
    unfold ffSampling at h
    dsimp only at h
    split at h
    · cases h
    · rename_i a e1
      split at h
      · cases h
      · rename_i b e2
        cases h
        have := ih _ _ _ _ _ _ _ e2 (ih _ _ _ _ _ _ _ e1 hst)
        exact this

/-- **C108**: for every Falcon key of degree `2^k` from 2 to 1024 whose orthogonalized vector has squared norm at most 16818, every sampler, message point and state: each `isigma` that an attempt to sign passes to the sampler suits it. -/
theorem C108_deviations {τ : Type} (k : ℕ) (h1 : 1 ≤ k) (h2 : k ≤ 10) (f g F G : List ℤ) (h : List ℕ) (key : IsFalconKey (2 ^ k) (2 ^ (maxFgBits[k]! - 1) - 1) f g F G h) (r1 r2 : ℕ → ℝ) (hr : IsOrth k f g r1 r2)
    (hK : sqNorm k r1 r2 ≤ 16818) (samp : Samp τ) (hm : List ℕ) (st st' : τ) (r : Option (List ℤ)) (l : List W) (run : doSignDyn (spied samp) f g F G hm k (st, []) = some (r, (st', l))) :
    ∀ isigma ∈ l, Suits k isigma := by
  classical
  rw [C108_agree k h1 h2 f g F G h key r1 r2 hr hK (spied samp) (fun st mu is => if Suits k is then spied samp st mu is else none) (fun st mu is hs => by rw [if_pos hs])] at run
  unfold doSignDyn at run
  dsimp only at run
  split at run
  · cases run
  · rename_i z e
    have := spied_tree _ (Suits k) (fun st mu is r h hst => by
      split at h
      · rename_i hs
        unfold spied at h
        obtain ⟨a, ha, rfl⟩ := Option.map_eq_some_iff.1 h
        intro w hw
        rcases List.mem_append.1 hw with hw | hw
        · exact hst w hw
        · rw [List.mem_singleton.1 hw]; exact hs
      · cases h) k k _ _ _ _ _ _ _ e (fun w hw => by cases hw)
    simp only [Option.some.injEq, Prod.mk.injEq] at run
    rw [run.2] at this
    exact this

/-- Recording changes nothing. -/
theorem spied_same {τ : Type} (samp : Samp τ) (orig : ℕ) : ∀ (k : ℕ) (t0 t1 g00 g01 g11 : List W) (st : τ) (l : List W),
    (ffSampling (spied samp) orig k t0 t1 g00 g01 g11 (st, l)).map (fun r => (r.1, r.2.1, r.2.2.1)) = ffSampling samp orig k t0 t1 g00 g01 g11 st := by
  intro k
  induction k with
  | zero =>
    intro t0 t1 g00 g01 g11 st l
    unfold ffSampling spied
    dsimp only
    cases e1 : samp st t0[0]! (mul (sqrt g00[0]!) invSigma[orig]!) with
    | none => rfl
    | some a =>
      dsimp only [Option.map]
      cases e2 : samp a.2 t1[0]! (mul (sqrt g00[0]!) invSigma[orig]!) with
      | none => rfl
      | some b => rfl
  | succ k ih =>
    intro t0 t1 g00 g01 g11 st l
    unfold ffSampling
    dsimp only
    rw [← ih _ _ _ _ _ st l]
    generalize ffSampling (spied samp) orig k _ _ _ _ _ (st, l) = o
    cases o with
    | none => rfl
    | some a =>
      dsimp only [Option.map]
      rw [← ih _ _ _ _ _ a.2.2.1 a.2.2.2]
      generalize ffSampling (spied samp) orig k _ _ _ _ _ (a.2.2.1, a.2.2.2) = o
      cases o with
      | none => rfl
      | some b => rfl

/-- **C108** (the record does not disturb the signer). -/
theorem C108_spied {τ : Type} (samp : Samp τ) (f g F G : List ℤ) (hm : List ℕ) (k : ℕ) (st : τ) : (doSignDyn (spied samp) f g F G hm k (st, [])).map (fun r => (r.1, r.2.1)) = doSignDyn samp f g F G hm k st := by
  unfold doSignDyn
  dsimp only
  rw [← spied_same samp k k _ _ _ _ _ st []]
  split
  · rename_i e; rw [e]; rfl
  · rename_i a e; rw [e]; rfl

/-- **C108** (`sign_dyn`): with such a key the signature is the one a sampler would give that refuses every deviation that does not suit C98. -/
theorem C108_sign_dyn (k : ℕ) (h1 : 1 ≤ k) (h2 : k ≤ 10) (f g F G : List ℤ) (h : List ℕ) (key : IsFalconKey (2 ^ k) (2 ^ (maxFgBits[k]! - 1) - 1) f g F G h) (r1 r2 : ℕ → ℝ) (hr : IsOrth k f g r1 r2)
    (hK : sqNorm k r1 r2 ≤ 16818) (sfuel : ℕ) (buf : ℕ → Bytes) (samp' : Samp Prng.Prng) (hag : ∀ p mu isigma, Suits k isigma → zSampler k sfuel p mu isigma = samp' p mu isigma) (hm : List ℕ) (fuel : ℕ) (c c' : Shake.Ctx) (s : List ℤ) :
    signDyn sfuel buf f g F G hm k fuel 0 c = some (s, c') ↔ ∃ j < fuel, (∀ i < j, ∃ p, doSignDyn samp' f g F G hm k (attempt buf 0 c i).1 = some (none, p)) ∧
      (∃ p, doSignDyn samp' f g F G hm k (attempt buf 0 c j).1 = some (some s, p)) ∧ c' = (attempt buf 0 c j).2 := by
  rw [C106_loop]
  simp only [C108_agree k h1 h2 f g F G h key r1 r2 hr hK (zSampler k sfuel) samp' hag]

/-! ## A concrete case: a key of degree 2 -/

/-- The key that `exKeygen` generates meets the hypotheses. -/
theorem exKey : IsFalconKey (2 ^ 1) (2 ^ (maxFgBits[1]! - 1) - 1) [-56, 55] [-74, -25] [99, -16] [-53, -29] [1285, 7407] ∧ ∃ r1 r2, IsOrth 1 [-56, 55] [-74, -25] r1 r2 ∧ sqNorm 1 r1 r2 ≤ 16818 := by
  refine ⟨C90_keygen exNext exSolver [0, 0] (orthTest 1) 1 2 (by decide) (by decide) rfl 1 0 _ _ _ _ _ Orth.exKeygen, ?_⟩
  obtain ⟨r1, r2, I, -⟩ := C107_keygen exNext exSolver [0, 0] 1 2 (by decide) (by decide) rfl 1 0 _ _ _ _ _ Orth.exKeygen
  refine ⟨r1, r2, I, ?_⟩
  rw [sqNorm_eq 0 _ _ r1 r2 I]
  unfold total gramAt value
  rw [show 2 ^ 0 = 1 from rfl, Finset.sum_range_one]
  dsimp only
  rw [zero_add, pev_one, pev_one, ← Complex.normSq_eq_norm_sq, ← Complex.normSq_eq_norm_sq, Complex.normSq_mk, Complex.normSq_mk]
  norm_num

set_option maxRecDepth 100000 in
/-- The deviations of an attempt with that key, and a sampler that always answers 1: two words, each used twice. -/
example : ∃ r, doSignDyn (spied fun (u : Unit) _ _ => some (1, u)) [-56, 55] [-74, -25] [99, -16] [-53, -29] [119, 0] 1 ((), []) = some (r, ((), [4605077927322569789, 4605077927322569789, 4605062761474251217, 4605062761474251217])) := ⟨_, rfl⟩

set_option maxRecDepth 100000 in
example : Suits 1 4605062761474251217 := by
  obtain ⟨key, r1, r2, I, n⟩ := exKey
  have h : ∃ r, doSignDyn (spied fun (u : Unit) _ _ => some (1, u)) [-56, 55] [-74, -25] [99, -16] [-53, -29] [119, 0] 1 ((), []) = some (r, ((), [4605077927322569789, 4605077927322569789, 4605062761474251217, 4605062761474251217])) := ⟨_, rfl⟩
  obtain ⟨r, hr⟩ := h
  exact C108_deviations 1 (by norm_num) (by norm_num) _ _ _ _ _ key r1 r2 I n _ _ _ _ _ _ hr _ (by simp)

end Verif.CRef.Fft
