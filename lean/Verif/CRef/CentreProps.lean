import Verif.CRef.CentreTop
import Verif.CRef.TreeProps

/-! # C109: the centres the signer passes to the sampler are in range, so that every draw is rejection sampling -/

namespace Verif.CRef.Fft

open Verif.CRef.Kg Verif.CRef Verif.CRef.Fpr Verif.CRef.Orth Verif.CRef.SignDyn Verif.Falcon Verif.CRef.SignSampler Verif.CRef.Prng

/-- The values of the Gram matrix of a key. -/
theorem key_gamma (s : ℕ) (hs : s ≤ 9) (f g : List ℤ) (lf : f.length = 2 ^ (s + 1)) (lg : g.length = 2 ^ (s + 1)) (hN : normSq f + normSq g ≤ 16822) (r1 r2 : ℕ → ℝ) (hr : IsOrth (s + 1) f g r1 r2)
    (hK : sqNorm (s + 1) r1 r2 ≤ 16818) (p : ℕ) (hp : p < 2 ^ s) : 1753 / 100 ≤ gramAt (s + 1) f g (root (s + 1) p) ∧ gramAt (s + 1) f g (root (s + 1) p) ≤ 512 * 16822 := by
  have p9 : (2 : ℝ) ^ s ≤ 2 ^ 9 := pow_le_pow_right₀ (by norm_num) hs
  obtain ⟨γ, hγ⟩ : ∃ γ : ℕ → ℝ, (fun p => gramAt (s + 1) f g (root (s + 1) p)) = γ := ⟨_, rfl⟩
  have eγ : ∀ p, gramAt (s + 1) f g (root (s + 1) p) = γ p := fun p => by rw [← hγ]
  have pos : ∀ p < 2 ^ s, 0 < γ p := fun p _ => by rw [← eγ]; exact lt_of_le_of_ne (gram_nonneg _ _ _ _) (Ne.symm (hr _ (root_pow _ _)).1)
  have T : total s γ ≤ 16818 := by rw [← hγ, ← sqNorm_eq s f g r1 r2 hr]; exact hK
  have M := gram_mean s f g lf lg hN
  simp only [eγ] at M
  have T0 : 0 ≤ total s γ := by unfold total; exact mul_nonneg (by positivity) (Finset.sum_nonneg fun p hp => (one_div_pos.2 (pos p (Finset.mem_range.1 hp))).le)
  have y2 : 12289 ^ 2 / γ p ≤ 512 * 16818 := (total_ge s γ pos p hp).trans ((mul_le_mul p9 T T0 (by positivity)).trans (by norm_num))
  rw [eγ]
  constructor
  · rw [div_le_iff₀ (pos p hp)] at y2
    norm_num at *; linarith
  · have := Finset.single_le_sum (f := γ) (fun i hi => (pos i (Finset.mem_range.1 hi)).le) (Finset.mem_range.2 hp)
    refine this.trans (M.trans ?_)
    norm_num at *; linarith

/-- **C109** (agreement): for every Falcon key of degree `2^k` from 2 to 1024 whose orthogonalized vector has squared norm at most 16818, every message point and every state, an attempt to sign depends only on what
the sampler does for deviations that suit it and centres in range. -/
theorem C109_agree {τ : Type} (k : ℕ) (h1 : 1 ≤ k) (h2 : k ≤ 10) (f g F G : List ℤ) (h : List ℕ) (key : IsFalconKey (2 ^ k) (2 ^ (maxFgBits[k]! - 1) - 1) f g F G h) (r1 r2 : ℕ → ℝ) (hr : IsOrth k f g r1 r2)
    (hK : sqNorm k r1 r2 ≤ 16818) (samp samp' : Samp τ) (near : Near k samp') (hag : ∀ st mu isigma, Suits k isigma → Centre mu → samp st mu isigma = samp' st mu isigma)
    (hm : List ℕ) (hl : hm.length = 2 ^ k) (hq : ∀ x ∈ hm, x < 12289) (st : τ) : doSignDyn samp f g F G hm k st = doSignDyn samp' f g F G hm k st := by
  obtain ⟨s, rfl⟩ : ∃ s, k = s + 1 := ⟨k - 1, by omega⟩
  have hs : s ≤ 9 := by omega
  obtain ⟨gr, hgr⟩ : ∃ gr, gram (basis f g F G (s + 1)) (s + 1) = gr := ⟨_, rfl⟩
  obtain ⟨N1, N2⟩ := key_nodes s hs f g F G key.ntru key.fBound key.gBound key.FBound key.GBound key.norm r1 r2 hr hK gr hgr.symm
  have tg := target_slots s hs f g F G key.ntru.1 key.ntru.2.2.1 key.fBound key.FBound hm hl hq
  obtain ⟨t, ht⟩ : ∃ t, target (basis f g F G (s + 1)) hm (s + 1) = t := ⟨_, rfl⟩
  rw [ht] at tg
  have u := uu_num
  have p9 : (2 : ℝ) ^ s ≤ 2 ^ 9 := pow_le_pow_right₀ (by norm_num) hs
  have s9 : (s : ℝ) ≤ 9 := by exact_mod_cast hs
  have c2 : (1 + 2 * (1375 / 10 ^ 8 : ℝ)) ^ s ≤ 1 + 2477 / 10 ^ 7 := pow_small _ _ s hs (by norm_num) (by norm_num)
  have c1 : (1 + 2 * (2 / 10 ^ 8 : ℝ)) ^ s ≤ 1 + 1 / 10 ^ 6 := pow_small _ _ s hs (by norm_num) (by norm_num)
  have sA : (2 : ℝ) ^ 29 + 2 ^ 20 + s * 2 ^ 24 ≤ 2 ^ 30 := by
    have := mul_le_mul_of_nonneg_right s9 (show (0 : ℝ) ≤ 2 ^ 24 by norm_num)
    have n : (2 : ℝ) ^ 29 + 2 ^ 20 + 9 * 2 ^ 24 ≤ 2 ^ 30 := by norm_num
    linarith
  have sB : (2 : ℝ) ^ 29 + 2 ^ 28 + s * 2 ^ 24 ≤ 2 ^ 30 := by
    have := mul_le_mul_of_nonneg_right s9 (show (0 : ℝ) ≤ 2 ^ 24 by norm_num)
    have n : (2 : ℝ) ^ 29 + 2 ^ 28 + 9 * 2 ^ 24 ≤ 2 ^ 30 := by norm_num
    linarith
  have near' : ∀ st mu is r, Suits (s + 1) is → Centre mu → samp' st mu is = some r → |(r.1 : ℝ) - val mu| ≤ 20 := fun st mu is r a b c => near st mu is r.1 r.2 a b c
  have T2 := tree2 samp samp' (Suits (s + 1)) hag near' (s + 1) (126 / 1000) (1375 / 10 ^ 8) _ 17 (2 ^ 24) _ (by norm_num) (by norm_num) (by norm_num) (by norm_num) (by norm_num) rfl
    (by rw [u]; norm_num) (by norm_num) rfl s hs _ _ _ _ _ _ (by norm_num) N2 (by norm_num at c2 ⊢; linarith) (by norm_num at c2 ⊢; linarith) (by rw [u]; norm_num at p9 ⊢; linarith)
    (fun x x0 y1 y2 => leaf_suits (s + 1) h1 h2 _ _ _ (by norm_num) x x0 _ c2 (by norm_num) (by norm_num) (by norm_num) y1 y2) (by norm_num at c2 ⊢; linarith) t.2 (2 ^ 29 + 2 ^ 20) sA
    (fun p hp => (tg p hp).2.1) (fun p hp => (tg p hp).2.2) st
  have Gm := fun p hp => key_gamma s hs f g key.ntru.1 key.ntru.2.1 key.norm r1 r2 hr hK p hp
  have S0 : ∀ z : List W, (∀ p < 2 ^ s, Weak (slot z (2 ^ s) p) ∧ val (slot (polyLdlFft gr.1 gr.2.1 gr.2.2 (s + 1)).2 (2 ^ s) p).1 * ‖cv (slot t.2 (2 ^ s) p) - cv (slot z (2 ^ s) p)‖ ^ 2 ≤ 5 ^ s * (800 * 16823)) →
      ∀ p < 2 ^ s, Weak (slot (polyAdd t.1 (polyMulFft (polyLdlFft gr.1 gr.2.1 gr.2.2 (s + 1)).1 (polySub t.2 z (s + 1)) (s + 1)) (s + 1)) (2 ^ s) p) ∧
        ‖cv (slot (polyAdd t.1 (polyMulFft (polyLdlFft gr.1 gr.2.1 gr.2.2 (s + 1)).1 (polySub t.2 z (s + 1)) (s + 1)) (s + 1)) (2 ^ s) p)‖ ≤ 2 ^ 29 + 2 ^ 28 := fun z hz p hp => by
    have K := key_slot s hs f g F _ key.ntru key.fBound key.gBound key.FBound key.GBound p hp _ rfl (by have := (Gm p hp).1; linarith) (by have := (Gm p hp).2; norm_num at this ⊢; linarith) gr hgr.symm
    have L := key_mult s hs f g F _ key.ntru key.fBound key.gBound key.FBound key.GBound p hp _ rfl (by have := (Gm p hp).1; linarith) (by have := (Gm p hp).2; norm_num at this ⊢; linarith) gr hgr.symm
    rw [(polyAdd_slot s _ _).2 p hp, polyMul_slot s _ _ p hp, polySub_slot s _ _ p hp]
    have Gp := Gm p hp
    generalize gramAt (s + 1) f g (root (s + 1) p) = γ at *
    have γ0 : 0 < γ := by linarith
    have y1 : 1753 / 100 ≤ 12289 ^ 2 / γ := by rw [le_div_iff₀ γ0]; have := Gp.2; norm_num at this ⊢; linarith
    have lo := N2.lo p hp
    refine root_first _ _ _ _ γ _ (tg p hp).1.1 (tg p hp).2.1 (hz p hp).1 (tg p hp).1.2 (tg p hp).2.2 (by linarith) L (by linarith) ?_ ((hz p hp).2.trans ?_)
    · have := (abs_le.1 K.2.2.2.2.2.1).1
      generalize (12289 : ℝ) ^ 2 / γ = y at *
      norm_num at this y1 ⊢; linarith
    · exact mul_le_mul_of_nonneg_right (pow_le_pow_right₀ (by norm_num) hs) (by norm_num)
  have T1 := fun z hz => tree2 samp samp' (Suits (s + 1)) hag near' (s + 1) (1 / 2 ^ 13) (2 / 10 ^ 8) _ 17 (2 ^ 24) _ (by norm_num) (by norm_num) (by norm_num) (by norm_num) (by norm_num) rfl
    (by rw [u]; norm_num) (by norm_num) rfl s hs _ _ _ _ _ _ (by norm_num) N1 (by norm_num at c1 ⊢; linarith) (by norm_num at c1 ⊢; linarith) (by rw [u]; norm_num at p9 ⊢; linarith)
    (fun x x0 y1 y2 => leaf_suits (s + 1) h1 h2 _ _ _ (by norm_num) x x0 _ c1 (by norm_num) (by norm_num) (by norm_num) y1 y2) (by norm_num at c1 ⊢; linarith)
    (polyAdd t.1 (polyMulFft (polyLdlFft gr.1 gr.2.1 gr.2.2 (s + 1)).1 (polySub t.2 z (s + 1)) (s + 1)) (s + 1)) (2 ^ 29 + 2 ^ 28) sB
    (fun p hp => (S0 z hz p hp).1) (fun p hp => (S0 z hz p hp).2)
  have main : ffSampling samp (s + 1) (s + 1) t.1 t.2 gr.1 gr.2.1 gr.2.2 st = ffSampling samp' (s + 1) (s + 1) t.1 t.2 gr.1 gr.2.1 gr.2.2 st := by
    unfold ffSampling
    dsimp only
    rw [T2.1]
    cases q : ffSampling samp' (s + 1) s (polySplitFft t.2 (s + 1)).1 (polySplitFft t.2 (s + 1)).2 (polySplitFft (polyLdlFft gr.1 gr.2.1 gr.2.2 (s + 1)).2 (s + 1)).1
      (polySplitFft (polyLdlFft gr.1 gr.2.1 gr.2.2 (s + 1)).2 (s + 1)).2 (polySplitFft (polyLdlFft gr.1 gr.2.1 gr.2.2 (s + 1)).2 (s + 1)).1 st with
    | none => rfl
    | some a =>
      dsimp only
      rw [(T1 _ (T2.2 a q) a.2.2).1]
  unfold doSignDyn
  dsimp only
  rw [hgr, ht, main]

/-! ## The sampler of the signer answers near the centre -/

theorem gaussian0_le (lo hi : ℕ) : gaussian0Of lo hi ≤ 18 := by
  unfold gaussian0Of
  dsimp only
  generalize (BitVec.setWidth 32 (BitVec.ofNat 64 lo) &&& 0xFFFFFF#32) = v0
  generalize (BitVec.setWidth 32 (BitVec.ofNat 64 lo >>> 24) &&& 0xFFFFFF#32) = v1
  generalize (BitVec.setWidth 32 (BitVec.ofNat 64 lo >>> 48) ||| BitVec.ofNat 32 hi <<< 16) = v2
  have one : ∀ w0 w1 w2, (borrow v0 v1 v2 w0 w1 w2).toNat ≤ 1 := fun w0 w1 w2 => by
    unfold borrow
    dsimp only
    rw [BitVec.toNat_ushiftRight, Nat.shiftRight_eq_div_pow]
    generalize (v2 - w2 - (v1 - w1 - (v0 - w0) >>> 31) >>> 31) = x
    have := x.isLt
    omega
  have : ∀ n z, (List.range n).foldl (fun z k => z + (borrow v0 v1 v2 (dist.getD (3 * k + 2) 0) (dist.getD (3 * k + 1) 0) (dist.getD (3 * k) 0)).toNat) z ≤ z + n := by
    intro n
    induction n with
    | zero => intro z; simp
    | succ n ih =>
      intro z
      rw [List.range_succ, List.foldl_append]
      have := ih z
      have := one (dist.getD (3 * n + 2) 0) (dist.getD (3 * n + 1) 0) (dist.getD (3 * n) 0)
      simp only [List.foldl_cons, List.foldl_nil]
      omega
  exact (this 18 0).trans (by norm_num)

theorem loop_near (m : ℤ) (r dss ccs : W) : ∀ (fuel : ℕ) (p p' : Prng) (z : ℤ), sampleLoop m r dss ccs fuel p = some (z, p') → |z - m| ≤ 19 := by
  intro fuel
  induction fuel with
  | zero => intro p p' z h; unfold sampleLoop at h; cases h
  | succ fuel ih =>
    intro p p' z h
    unfold sampleLoop at h
    dsimp only at h
    split at h
    · have g : (gaussian0 p).1 ≤ 18 := gaussian0_le _ _
      simp only [Option.some.injEq, Prod.mk.injEq] at h
      rw [← h.1, add_sub_cancel_left, abs_le]
      generalize (gaussian0 p).1 = x at *
      have b : (getU8 (gaussian0 p).2).1 % 2 = 0 ∨ (getU8 (gaussian0 p).2).1 % 2 = 1 := by omega
      rcases b with b | b <;> rw [b] <;> constructor <;> push_cast <;> omega
    · exact ih _ _ _ h

/-- **C109** (draws): every answer of the sampler is within 20 of its centre. -/
theorem C109_near (k sfuel : ℕ) : Near k (zSampler k sfuel) := by
  intro p mu isigma z p' _ hc h
  obtain ⟨m, e1, -, -, m0, m1, -, -⟩ := center_spec mu hc.2
  unfold zSampler sampler at h
  dsimp only at h
  rw [e1] at h
  have := loop_near m _ _ _ _ _ _ _ h
  have : |(z : ℝ) - m| ≤ 19 := by exact_mod_cast this
  obtain ⟨a, b⟩ := abs_le.1 this
  rw [abs_le]
  constructor <;> linarith

/-! ## The record -/

theorem watched_tree {τ : Type} (samp : Samp (τ × List (W × W))) (P : W × W → Prop) (hp : ∀ st mu is r, samp st mu is = some r → (∀ w ∈ st.2, P w) → ∀ w ∈ r.2.2, P w) (orig : ℕ) :
    ∀ (k : ℕ) (t0 t1 g00 g01 g11 : List W) (st : τ × List (W × W)) (r : List W × List W × (τ × List (W × W))), ffSampling samp orig k t0 t1 g00 g01 g11 st = some r → (∀ w ∈ st.2, P w) → ∀ w ∈ r.2.2.2, P w := by
  intro k
  induction k with
  | zero =>
    intro t0 t1 g00 g01 g11 st r h hst
    unfold ffSampling at h
    dsimp only at h
    cases e1 : samp st t0[0]! (mul (sqrt g00[0]!) invSigma[orig]!) with
    | none => rw [e1] at h; cases h
    | some a =>
      rw [e1] at h
      dsimp only at h
      cases e2 : samp a.2 t1[0]! (mul (sqrt g00[0]!) invSigma[orig]!) with
      | none => rw [e2] at h; cases h
      | some b =>
        rw [e2] at h
        dsimp only at h
        cases h
        exact hp _ _ _ _ e2 (hp _ _ _ _ e1 hst)
  | succ k ih =>
    intro t0 t1 g00 g01 g11 st r h hst
    unfold ffSampling at h
    dsimp only at h
    split at h
    · cases h
    · rename_i a e1
      split at h
      · cases h
      · rename_i b e2
        cases h
        have := ih _ _ _ _ _ _ _ e2 (ih _ _ _ _ _ _ _ e1 hst)
        exact this

/-- **C109**: for every Falcon key of degree `2^k` from 2 to 1024 whose orthogonalized vector has squared norm at most 16818, every message point, every sampler that answers near the centre and every state: each
centre that an attempt to sign passes to the sampler is in range, and each deviation suits. -/
theorem C109_centres {τ : Type} (k : ℕ) (h1 : 1 ≤ k) (h2 : k ≤ 10) (f g F G : List ℤ) (h : List ℕ) (key : IsFalconKey (2 ^ k) (2 ^ (maxFgBits[k]! - 1) - 1) f g F G h) (r1 r2 : ℕ → ℝ) (hr : IsOrth k f g r1 r2)
    (hK : sqNorm k r1 r2 ≤ 16818) (samp : Samp τ) (near : Near k samp) (hm : List ℕ) (hl : hm.length = 2 ^ k) (hq : ∀ x ∈ hm, x < 12289) (st st' : τ) (r : Option (List ℤ)) (l : List (W × W))
    (run : doSignDyn (watched samp) f g F G hm k (st, []) = some (r, (st', l))) : ∀ c ∈ l, Centre c.1 ∧ Suits k c.2 := by
  classical
  have nw : Near k fun st mu is => if Centre mu ∧ Suits k is then watched samp st mu is else none := by
    intro s mu is z s' hs hc e
    simp only [hc, hs, and_self, if_true] at e
    unfold watched at e
    obtain ⟨a, ha, e⟩ := Option.map_eq_some_iff.1 e
    simp only [Prod.mk.injEq] at e
    rw [← e.1]
    exact near _ _ _ a.1 a.2 hs hc ha
  rw [C109_agree k h1 h2 f g F G h key r1 r2 hr hK (watched samp) (fun st mu is => if Centre mu ∧ Suits k is then watched samp st mu is else none) nw (fun st mu is hs hc => by rw [if_pos ⟨hc, hs⟩]) hm hl hq] at run
  unfold doSignDyn at run
  dsimp only at run
  split at run
  · cases run
  · rename_i z e
    have := watched_tree _ (fun c => Centre c.1 ∧ Suits k c.2) (fun st mu is r h hst => by
      split at h
      · rename_i hs
        unfold watched at h
        obtain ⟨a, ha, rfl⟩ := Option.map_eq_some_iff.1 h
        intro w hw
        rcases List.mem_append.1 hw with hw | hw
        · exact hst w hw
        · rw [List.mem_singleton.1 hw]; exact hs
      · cases h) k k _ _ _ _ _ _ _ e (fun w hw => by cases hw)
    simp only [Option.some.injEq, Prod.mk.injEq] at run
    rw [run.2] at this
    exact this

/-- Recording changes nothing. -/
theorem watched_same {τ : Type} (samp : Samp τ) (orig : ℕ) : ∀ (k : ℕ) (t0 t1 g00 g01 g11 : List W) (st : τ) (l : List (W × W)),
    (ffSampling (watched samp) orig k t0 t1 g00 g01 g11 (st, l)).map (fun r => (r.1, r.2.1, r.2.2.1)) = ffSampling samp orig k t0 t1 g00 g01 g11 st := by
  intro k
  induction k with
  | zero =>
    intro t0 t1 g00 g01 g11 st l
    unfold ffSampling watched
    dsimp only
    cases e1 : samp st t0[0]! (mul (sqrt g00[0]!) invSigma[orig]!) with
    | none => rfl
    | some a =>
      dsimp only [Option.map]
      cases e2 : samp a.2 t1[0]! (mul (sqrt g00[0]!) invSigma[orig]!) with
      | none => rfl
      | some b => rfl
  | succ k ih =>
    intro t0 t1 g00 g01 g11 st l
    unfold ffSampling
    dsimp only
    rw [← ih _ _ _ _ _ st l]
    generalize ffSampling (watched samp) orig k _ _ _ _ _ (st, l) = o
    cases o with
    | none => rfl
    | some a =>
      dsimp only [Option.map]
      rw [← ih _ _ _ _ _ a.2.2.1 a.2.2.2]
      generalize ffSampling (watched samp) orig k _ _ _ _ _ (a.2.2.1, a.2.2.2) = o
      cases o with
      | none => rfl
      | some b => rfl

/-- **C109** (the record does not disturb the signer). -/
theorem C109_watched {τ : Type} (samp : Samp τ) (f g F G : List ℤ) (hm : List ℕ) (k : ℕ) (st : τ) : (doSignDyn (watched samp) f g F G hm k (st, [])).map (fun r => (r.1, r.2.1)) = doSignDyn samp f g F G hm k st := by
  unfold doSignDyn
  dsimp only
  rw [← watched_same samp k k _ _ _ _ _ st []]
  split
  · rename_i e; rw [e]; rfl
  · rename_i a e; rw [e]; rfl

end Verif.CRef.Fft
