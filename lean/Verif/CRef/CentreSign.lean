import Verif.CRef.CentreProps

/-! # C109: with a Falcon key, every draw of the signer is rejection sampling from the discrete Gaussian distribution -/

namespace Verif.CRef.Fft

open Verif.CRef.Kg Verif.CRef Verif.CRef.Fpr Verif.CRef.Orth Verif.CRef.SignDyn Verif.Falcon Verif.CRef.SignSampler Verif.CRef.Prng

theorem trials_live (m : ℤ) (T : ℕ → ℕ → ℕ) : ∀ (fuel : ℕ) (p p' : Prng) (z : ℤ), Live p → trials m T fuel p = some (z, p') → Live p' := by
  intro fuel
  induction fuel with
  | zero => intro p p' z _ h; unfold trials at h; cases h
  | succ fuel ih =>
    intro p p' z hp h
    unfold trials at h
    dsimp only at h
    have L := lazyLess_live (T (Sampler.baseOf ((getU64 p).1 + 2 ^ 64 * (getU8 (getU64 p).2).1)) ((getU8 (getU8 (getU64 p).2).2).1 % 2)) 8 _ (getU8_live _ (getU8_live _ (getU64_live p hp).2).2).2
    split at h
    · simp only [Option.some.injEq, Prod.mk.injEq] at h
      rw [← h.2]; exact L
    · exact ih _ _ _ L h

/-- Samplers that agree on an invariant of the state. -/
theorem ff_inv {τ : Type} (samp samp' : Samp τ) (I : τ → Prop) (hag : ∀ st mu is, I st → samp st mu is = samp' st mu is) (keep : ∀ st mu is r, I st → samp' st mu is = some r → I r.2) (orig : ℕ) :
    ∀ (k : ℕ) (t0 t1 g00 g01 g11 : List W) (st : τ), I st → ffSampling samp orig k t0 t1 g00 g01 g11 st = ffSampling samp' orig k t0 t1 g00 g01 g11 st ∧
      ∀ r, ffSampling samp' orig k t0 t1 g00 g01 g11 st = some r → I r.2.2 := by
  intro k
  induction k with
  | zero =>
    intro t0 t1 g00 g01 g11 st hI
    unfold ffSampling
    dsimp only
    rw [hag st _ _ hI]
    cases e1 : samp' st t0[0]! (mul (sqrt g00[0]!) invSigma[orig]!) with
    | none => exact ⟨rfl, fun r h => by cases h⟩
    | some a =>
      have Ia := keep _ _ _ _ hI e1
      dsimp only
      rw [hag a.2 _ _ Ia]
      refine ⟨rfl, fun r h => ?_⟩
      cases e2 : samp' a.2 t1[0]! (mul (sqrt g00[0]!) invSigma[orig]!) with
      | none => rw [e2] at h; cases h
      | some b =>
        rw [e2] at h
        cases h
        exact keep _ _ _ _ Ia e2
  | succ k ih =>
    intro t0 t1 g00 g01 g11 st hI
    unfold ffSampling
    dsimp only
    have i1 := ih (polySplitFft t1 (k + 1)).1 (polySplitFft t1 (k + 1)).2 (polySplitFft (polyLdlFft g00 g01 g11 (k + 1)).2 (k + 1)).1 (polySplitFft (polyLdlFft g00 g01 g11 (k + 1)).2 (k + 1)).2
      (polySplitFft (polyLdlFft g00 g01 g11 (k + 1)).2 (k + 1)).1 st hI
    rw [i1.1]
    have i2 := i1.2
    generalize ffSampling samp' orig k (polySplitFft t1 (k + 1)).1 (polySplitFft t1 (k + 1)).2 (polySplitFft (polyLdlFft g00 g01 g11 (k + 1)).2 (k + 1)).1 (polySplitFft (polyLdlFft g00 g01 g11 (k + 1)).2 (k + 1)).2
      (polySplitFft (polyLdlFft g00 g01 g11 (k + 1)).2 (k + 1)).1 st = o at *
    cases o with
    | none => exact ⟨rfl, fun r h => by cases h⟩
    | some a =>
      dsimp only
      have Ia := i2 a rfl
      refine ⟨by rw [(ih _ _ _ _ _ a.2.2 Ia).1], fun r h => ?_⟩
      split at h
      · cases h
      · rename_i b e
        cases h
        exact (ih _ _ _ _ _ a.2.2 Ia).2 b e

/-- **C109** (draws): for each degree there are thresholds of the discrete Gaussian distribution, within `2^-41`, such that for every Falcon key whose orthogonalized vector has squared norm at most 16818, every
message point and every state of the generator, an attempt to sign is the attempt in which each integer is drawn by rejection sampling with these thresholds. -/
theorem C109_rejection (k : ℕ) (h1 : 1 ≤ k) (h2 : k ≤ 10) : ∃ m T, Gaussian k m T ∧ ∀ (f g F G : List ℤ) (h : List ℕ) (_ : IsFalconKey (2 ^ k) (2 ^ (maxFgBits[k]! - 1) - 1) f g F G h) (r1 r2 : ℕ → ℝ) (_ : IsOrth k f g r1 r2)
    (_ : sqNorm k r1 r2 ≤ 16818) (hm : List ℕ) (_ : hm.length = 2 ^ k) (_ : ∀ x ∈ hm, x < 12289) (sfuel : ℕ) (p : Prng) (_ : Live p),
    doSignDyn (zSampler k sfuel) f g F G hm k p = doSignDyn (rejection m T sfuel) f g F G hm k p := by
  classical
  have C : ∀ mu is, ∃ (m : ℤ) (T : ℕ → ℕ → ℕ), Centre mu → Suits k is → (0 ≤ val mu - m ∧ val mu - m ≤ 1 ∧
      (∀ z0 b, z0 ≤ 18 → b < 2 → T z0 b < 2 ^ 64 ∧
        |(T z0 b : ℝ) / 2 ^ 64 - val is * val sigmaMin[k]! * Real.exp (-(((m + candidate z0 b : ℤ) - val mu) ^ 2 * val is ^ 2 / 2 - z0 ^ 2 / (2 * 1.8205 ^ 2)))| ≤ 1 / 2 ^ 41) ∧
      ∀ fuel p, Live p → sampler sigmaMin[k]! mu is fuel p = trials m T fuel p) := fun mu is => by
    by_cases hc : Centre mu ∧ Suits k is
    · obtain ⟨m, T, h⟩ := C98_sampler sigmaMin[k]! mu is hc.1.1 hc.1.2 hc.2.1 hc.2.2.1 hc.2.2.2.1 hc.2.2.2.2.1 hc.2.2.2.2.2
      exact ⟨m, T, fun _ _ => h⟩
    · exact ⟨0, fun _ _ => 0, fun a b => (hc ⟨a, b⟩).elim⟩
  choose m T hmT using C
  refine ⟨m, T, fun mu is hc hs => ⟨(hmT mu is hc hs).1, (hmT mu is hc hs).2.1, (hmT mu is hc hs).2.2.1⟩, ?_⟩
  intro f g F G h key r1 r2 hr hK hm hl hq sfuel p hp
  -- first the questions that do not occur
  have e1 : ∀ st, doSignDyn (zSampler k sfuel) f g F G hm k st = doSignDyn (fun p mu is => if Centre mu ∧ Suits k is then zSampler k sfuel p mu is else rejection m T sfuel p mu is) f g F G hm k st := fun st =>
    C109_agree k h1 h2 f g F G h key r1 r2 hr hK _ _ (fun st mu is z st' hs hc e => by
      simp only [hc, hs, and_self, if_true] at e
      exact C109_near k sfuel st mu is z st' hs hc e) (fun st mu is hs hc => by rw [if_pos ⟨hc, hs⟩]) hm hl hq st
  rw [e1]
  have e2 := ff_inv (fun p mu is => if Centre mu ∧ Suits k is then zSampler k sfuel p mu is else rejection m T sfuel p mu is) (rejection m T sfuel) Live (fun st mu is hst => by
      split
      · rename_i hc; exact (hmT mu is hc.1 hc.2).2.2.2 sfuel st hst
      · rfl) (fun st mu is r hst e => trials_live _ _ _ _ r.2 r.1 hst e) k k
  unfold doSignDyn
  dsimp only
  rw [(e2 _ _ _ _ _ p hp).1]

theorem extract_bytes : ∀ (fuel : ℕ) (c : Shake.Ctx) (len : ℕ) (out : Bytes), IsBytes out → IsBytes (Shake.extractLoop fuel c len out).2 := by
  intro fuel
  induction fuel with
  | zero => intro c len out h; exact h
  | succ fuel ih =>
    intro c len out h
    unfold Shake.extractLoop
    dsimp only
    split
    · refine ih _ _ _ fun x hx => ?_
      rcases List.mem_append.1 hx with hx | hx
      · exact h x hx
      · obtain ⟨i, -, rfl⟩ := List.mem_map.1 hx
        unfold Shake.outByte
        exact Nat.mod_lt _ (by norm_num)
    · exact h

theorem attempt_live (buf : ℕ → Bytes) (hb : ∀ i, (buf i).length = 512) : ∀ (j i : ℕ) (c : Shake.Ctx), Live (attempt buf i c j).1 := by
  intro j
  induction j with
  | zero =>
    intro i c
    exact live_init _ _ (hb i) (extract_bytes 56 c 56 [] fun x hx => by cases hx)
  | succ j ih => intro i c; exact ih (i + 1) _

/-- **C109** (`sign_dyn`): for each degree there are such thresholds that for every such key, every message point, every SHAKE context and every earlier content of the generator's buffers, the signature is the
vector of the first attempt that is short enough, each attempt drawing its integers by rejection sampling with these thresholds. -/
theorem C109_sign_dyn (k : ℕ) (h1 : 1 ≤ k) (h2 : k ≤ 10) : ∃ m T, Gaussian k m T ∧ ∀ (f g F G : List ℤ) (h : List ℕ) (_ : IsFalconKey (2 ^ k) (2 ^ (maxFgBits[k]! - 1) - 1) f g F G h) (r1 r2 : ℕ → ℝ) (_ : IsOrth k f g r1 r2)
    (_ : sqNorm k r1 r2 ≤ 16818) (hm : List ℕ) (_ : hm.length = 2 ^ k) (_ : ∀ x ∈ hm, x < 12289) (sfuel fuel : ℕ) (buf : ℕ → Bytes) (_ : ∀ i, (buf i).length = 512) (c c' : Shake.Ctx) (s : List ℤ),
    signDyn sfuel buf f g F G hm k fuel 0 c = some (s, c') ↔ ∃ j < fuel, (∀ i < j, ∃ p, doSignDyn (rejection m T sfuel) f g F G hm k (attempt buf 0 c i).1 = some (none, p)) ∧
      (∃ p, doSignDyn (rejection m T sfuel) f g F G hm k (attempt buf 0 c j).1 = some (some s, p)) ∧ c' = (attempt buf 0 c j).2 := by
  obtain ⟨m, T, hG, H⟩ := C109_rejection k h1 h2
  refine ⟨m, T, hG, fun f g F G h key r1 r2 hr hK hm hl hq sfuel fuel buf hb c c' s => ?_⟩
  rw [C106_loop]
  have e : ∀ i, doSignDyn (zSampler k sfuel) f g F G hm k (attempt buf 0 c i).1 = doSignDyn (rejection m T sfuel) f g F G hm k (attempt buf 0 c i).1 := fun i =>
    H f g F G h key r1 r2 hr hK hm hl hq sfuel _ (attempt_live buf hb i 0 c)
  simp only [e]

/-! ## A concrete case: the key of degree 2 of `exKey` -/

set_option maxRecDepth 100000 in
/-- The questions of an attempt with that key, and a sampler that answers the floor of the centre plus 3: four centres, two deviations. -/
example : ∃ r l, doSignDyn (watched fun (u : Unit) mu _ => some ((center mu).toInt + 3, u)) [-56, 55] [-74, -25] [99, -16] [-53, -29] [119, 0] 1 ((), []) = some (r, ((), l)) ∧ l.length = 4 := ⟨_, _, rfl, rfl⟩

/-- That sampler answers near the centre. -/
example : Near 1 (fun (u : Unit) mu _ => some ((center mu).toInt + 3, u)) := by
  intro u mu is z u' _ hc h
  obtain ⟨m, e1, -, -, m0, m1, -, -⟩ := center_spec mu hc.2
  dsimp only at h
  rw [e1] at h
  simp only [Option.some.injEq, Prod.mk.injEq] at h
  rw [← h.1, abs_le]
  push_cast
  constructor <;> linarith

/-- The message point of the example meets the hypotheses. -/
example : [119, 0].length = 2 ^ 1 ∧ ∀ x ∈ [119, 0], x < 12289 := by decide

end Verif.CRef.Fft
