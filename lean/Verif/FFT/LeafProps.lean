import Verif.FFT.Leaves

/-! # C112: every deviation the Python signer hands to its sampler is one the sampler is made for (exact arithmetic) -/

namespace Verif.FFT

open Finset Complex

set_option linter.unusedSectionVars false

/-- Every leaf of the tree carries a real deviation in `[lo, hi]`. -/
def DevIn (lo hi : ℝ) : Tree ℂ → Prop
  | .leaf l => ∃ s : ℝ, lo ≤ s ∧ s ≤ hi ∧ l.head? = some (s : ℂ)
  | .node _ T0 T1 => DevIn lo hi T0 ∧ DevIn lo hi T1

theorem dev_normalize {b σ : ℝ} (hb : 0 < b) (hσ : 0 < σ) : ∀ T : Tree ℂ, LeafPos T → LeafMean b (b / 12289 ^ 2) T → DevIn (σ / √b) (σ * √b / 12289) (normalizeTree sqrtC σ T)
  | .node _ T0 T1, p, h => ⟨dev_normalize hb hσ T0 p.1 h.1, dev_normalize hb hσ T1 p.2 h.2⟩
  | .leaf l, p, ⟨δ, d0, d1, d2, e⟩ => by
    have sd : 0 < √δ := Real.sqrt_pos.2 d0
    refine ⟨σ / √δ, div_le_div_of_nonneg_left hσ.le sd (Real.sqrt_le_sqrt d1), ?_, ?_⟩
    · have i1 : 1 / √δ ≤ √b / 12289 := by
        rw [show (1 : ℝ) / √δ = √(1 / δ) by rw [Real.sqrt_div' _ d0.le, Real.sqrt_one]]
        refine (Real.sqrt_le_sqrt d2).trans (le_of_eq ?_)
        rw [Real.sqrt_div' _ (by positivity), Real.sqrt_sq (by norm_num)]
      calc σ / √δ = σ * (1 / √δ) := by ring
        _ ≤ σ * (√b / 12289) := mul_le_mul_of_nonneg_left i1 hσ.le
        _ = _ := by ring
    · have hl := p.1
      match l, hl with
      | [x, y], _ =>
        have e : x = (δ : ℂ) := e
        simp only [List.set, List.head?, List.getD_cons_zero]
        rw [e, re_ofReal']
        unfold sqrtC
        rw [ofReal_re, ofReal_div]

/-- **C112 (tree)**: if `gs_norm(f, g, q) ≤ b`, every leaf of the tree of a key with these `f`, `g` is a deviation between `σ / √b` and `σ √b / q`. -/
theorem C112_tree {R : Nat → Nat → ℂ} {I : ℂ} (hR : RootLaw R I) {k : ℕ} (h1 : 1 ≤ k) (h2 : k ≤ 10) {f g F G : List ℤ} (h : Ntru (2 ^ k) f g F G) {b x σ : ℝ} (b0 : 0 < b) (hσ : 0 < σ)
    (hx : gsNorm R I f g = .ok x) (hb : x ≤ b) : ∃ B T, mkTree R I sqrtC σ (toK f) (toK g) (toK F) (toK G) = .ok (B, T) ∧ DevIn (σ / √b) (σ * √b / 12289) T := by
  obtain ⟨B, T, e, p, m⟩ := key_leaves hR h1 h2 h hx hb (σ : ℂ)
  exact ⟨B, _, e, dev_normalize b0 hσ T p m⟩

/-- The deviation of a recorded call lies in `[lo, hi]`. -/
def CallIn (lo hi : ℝ) (c : ℂ × ℂ × ℤ) : Prop := ∃ s : ℝ, lo ≤ s ∧ s ≤ hi ∧ c.2.1 = (s : ℂ)

theorem calls_loop {St : Type} (R : Nat → Nat → ℂ) (S : LeafSampler St ℂ) (lo hi : ℝ) : ∀ (fuel : Nat) (t0 t1 : List ℂ) (T : Tree ℂ) (st : St) (l : List (ℂ × ℂ × ℤ)) (r : List ℂ × List ℂ) (st' : St) (l' : List (ℂ × ℂ × ℤ)),
    DevIn lo hi T → (∀ c ∈ l, CallIn lo hi c) → ffSamplingLoop R (logged S) true fuel t0 t1 T (st, l) = .ok (r, (st', l')) → ∀ c ∈ l', CallIn lo hi c := by
  intro fuel
  induction fuel with
  | zero => intro t0 t1 T st l r st' l' _ _ h; cases h
  | succ fuel ih =>
    intro t0 t1 T st l r st' l' hT hl h
    unfold ffSamplingLoop at h
    split at h
    · split at h
      · cases h
      · rename_i l10 T0 T1
        split at h
        · cases h
        split at h
        · cases h
        rename_i za zb s1 e1
        split at h
        · cases h
        split at h
        · cases h
        split at h
        · cases h
        split at h
        · cases h
        split at h
        · cases h
        split at h
        · cases h
        rename_i zc zd s2 e2
        split at h
        · cases h
        cases h
        exact ih _ _ _ _ _ _ _ _ hT.1 (ih _ _ _ _ _ _ _ _ hT.2 hl e1) e2
    · split at h
      · rw [if_pos rfl] at h
        split at h
        · cases h
        · split at h
          · cases h
          · rename_i sigma tl
            split at h
            · cases h
            · simp only [logged, Except.ok.injEq, Prod.mk.injEq] at h
              obtain ⟨s, a, b, e⟩ := hT
              simp only [List.head?_cons, Option.some.injEq] at e
              rw [← h.2.2]
              intro c hc
              simp only [List.mem_append, List.mem_singleton, or_assoc] at hc
              rcases hc with hc | rfl | rfl
              · exact hl c hc
              · exact ⟨s, a, b, e⟩
              · exact ⟨s, a, b, e⟩
      · cases h

theorem calls_preimage {St : Type} (R : Nat → Nat → ℂ) (I : ℂ) (S : LeafSampler St ℂ) (rnd : ℂ → Int) (B : Mat ℂ) (T : Tree ℂ) (lo hi : ℝ) (hT : DevIn lo hi T) (point : List Int) (st : St)
    {s : List Int × List Int} {st' : St} {log : List (ℂ × ℂ × Int)} (h : samplePreimageFft R I (logged S) rnd B T point (st, []) = .ok (s, (st', log))) : ∀ c ∈ log, CallIn lo hi c := by
  unfold samplePreimageFft preimageFft ffSampling at h
  rcases hp : fft R I (point.map fun x : Int => (x : ℂ)) with e | p
  · rw [hp] at h; cases h
  rw [hp] at h
  dsimp only at h
  obtain ⟨q, hq⟩ : ∃ q, ffSamplingLoop R (logged S) true ((List.map (fun i => p.getD i 0 * B.d.getD i 0 / 12289) (List.range p.length)).length + 1) (List.map (fun i => p.getD i 0 * B.d.getD i 0 / 12289) (List.range p.length))
    (List.map (fun i => -p.getD i 0 * B.b.getD i 0 / 12289) (List.range p.length)) T (st, []) = q := ⟨_, rfl⟩
  rw [hq] at h
  match q, hq with
  | .error e, hq => cases h
  | .ok ((z0, z1), (s1, l1)), hq =>
    have H := calls_loop R S lo hi _ _ _ _ _ _ _ _ _ hT (by intro c hc; cases hc) hq
    dsimp only at h
    rcases m1 : mulFft z0 B.a with e | x0 <;> rcases m2 : mulFft z1 B.c with e | y0 <;> rcases m3 : mulFft z0 B.b with e | x1 <;> rcases m4 : mulFft z1 B.d with e | y1 <;> rw [m1, m2, m3, m4] at h <;> try cases h
    dsimp only at h
    rcases a1 : add x0 y0 with e | v0f <;> rcases a2 : add x1 y1 with e | v1f <;> rw [a1, a2] at h <;> try cases h
    dsimp only at h
    rcases i1 : ifft R I v0f with e | v0 <;> rcases i2 : ifft R I v1f with e | v1 <;> rw [i1, i2] at h <;> try cases h
    dsimp only at h
    split at h
    · injection h with h
      injection h with ha hb
      injection hb with hb hc
      rw [← hc]; exact H
    · cases h

/-- **C112 (calls)**: `sample_preimage` with such a key makes exactly `2 n` calls of the sampler, for every target and every behaviour of the sampler, and each of them with a deviation between `σ / √b` and `σ √b / q`. -/
theorem C112_calls {R : Nat → Nat → ℂ} {I : ℂ} (hR : RootLaw R I) {St : Type} {k : ℕ} (h1 : 1 ≤ k) (h2 : k ≤ 10) {f g F G : List ℤ} (h : Ntru (2 ^ k) f g F G) {b x σ : ℝ} (b0 : 0 < b) (hσ : 0 < σ)
    (hx : gsNorm R I f g = .ok x) (hb : x ≤ b) (S : LeafSampler St ℂ) {rnd : ℂ → Int} (hrnd : ∀ m : Int, rnd (m : ℂ) = m) {B : Mat ℂ} {T : Tree ℂ}
    (hT : mkTree R I sqrtC σ (toK f) (toK g) (toK F) (toK G) = .ok (B, T)) {point : List Int} (hp : point.length = 2 ^ k) (st : St) :
    ∃ (s0 s1 : List Int) (st' : St) (log : List (ℂ × ℂ × Int)), samplePreimageFft R I S rnd B T point st = .ok ((s0, s1), st') ∧ Run S st log st' ∧ log.length = 2 * 2 ^ k ∧
      ∀ c ∈ log, CallIn (σ / √b) (σ * √b / 12289) c := by
  obtain ⟨B', T', e, d⟩ := C112_tree hR h1 h2 h b0 hσ hx hb
  rw [hT] at e
  cases e
  have hs : (σ : ℂ) ≠ 0 := by exact_mod_cast hσ.ne'
  obtain ⟨z0, z1, st', log, _, _, e, l, n⟩ := preimage_ok hR h1 h2 h hs S hrnd hT hp st []
  obtain ⟨e', r⟩ := logged_preimage R I S rnd B T point st e
  exact ⟨_, _, st', log, e', r, l, calls_preimage R I S rnd B T _ _ d point st e⟩

/-- The interval of `C112_tree` for the bound of `ntru_gen` and the parameter sets. -/
theorem range_params {n : ℕ} {σ σm : ℚ} (hp : Falcon.sigmas n = some (σ, σm)) :
    0 < (σ : ℝ) ∧ 1 < (σm : ℝ) ∧ (σm : ℝ) - 1 / 10 ^ 14 ≤ σ / √16822.4121 ∧ (σ : ℝ) * √16822.4121 / 12289 < Falcon.maxSigma := by
  have q0 : (0 : ℝ) < √16822.4121 := Real.sqrt_pos.2 (by norm_num)
  have q1 : √(16822.4121 : ℝ) ^ 2 = 16822.4121 := Real.sq_sqrt (by norm_num)
  have N : 0 < σ ∧ 1 < σm ∧ (σm - 1 / 10 ^ 14) ^ 2 * 16822.4121 ≤ σ ^ 2 ∧ σ ^ 2 * 16822.4121 < (Falcon.maxSigma * 12289) ^ 2 := by
    unfold Falcon.sigmas at hp
    split at hp <;> cases hp <;> (refine ⟨?_, ?_, ?_, ?_⟩ <;> norm_num [Falcon.maxSigma])
  obtain ⟨a, b, c, d⟩ := N
  have a' : 0 < (σ : ℝ) := by exact_mod_cast a
  have b' : 1 < (σm : ℝ) := by exact_mod_cast b
  have c' : ((σm : ℝ) - 1 / 10 ^ 14) ^ 2 * 16822.4121 ≤ (σ : ℝ) ^ 2 := by
    have : (((σm - 1 / 10 ^ 14) ^ 2 * 16822.4121 : ℚ) : ℝ) ≤ ((σ ^ 2 : ℚ) : ℝ) := by exact_mod_cast c
    push_cast at this; exact this
  have d' : (σ : ℝ) ^ 2 * 16822.4121 < ((Falcon.maxSigma : ℝ) * 12289) ^ 2 := by
    have : ((σ ^ 2 * 16822.4121 : ℚ) : ℝ) < (((Falcon.maxSigma * 12289) ^ 2 : ℚ) : ℝ) := by exact_mod_cast d
    push_cast at this; exact this
  refine ⟨a', b', ?_, ?_⟩
  · rw [le_div_iff₀ q0]
    refine le_of_sq_le_sq ?_ a'.le
    rw [mul_pow, q1]; exact c'
  · rw [div_lt_iff₀ (by norm_num)]
    refine lt_of_pow_lt_pow_left₀ 2 (by rw [show (Falcon.maxSigma : ℝ) = 1.8205 by norm_num [Falcon.maxSigma]]; norm_num) ?_
    rw [mul_pow, q1]; exact d'

/-- **C112 (contract of the sampler)**: for every parameter set and every key whose `gs_norm` passes the test of `ntru_gen`, each call satisfies the documented precondition `1 < sigmin < sigma < MAX_SIGMA` of `samplerz`, the second comparison up to `10⁻¹⁴`. -/
theorem C112_contract {R : Nat → Nat → ℂ} {I : ℂ} (hR : RootLaw R I) {St : Type} {k : ℕ} (h1 : 1 ≤ k) (h2 : k ≤ 10) {f g F G : List ℤ} (h : Ntru (2 ^ k) f g F G) {x : ℝ} {σ σm : ℚ} (hp : Falcon.sigmas (2 ^ k) = some (σ, σm))
    (hx : gsNorm R I f g = .ok x) (hb : x ≤ 16822.4121) (S : LeafSampler St ℂ) {rnd : ℂ → Int} (hrnd : ∀ m : Int, rnd (m : ℂ) = m) {B : Mat ℂ} {T : Tree ℂ}
    (hT : mkTree R I sqrtC (σ : ℝ) (toK f) (toK g) (toK F) (toK G) = .ok (B, T)) {point : List Int} (hpt : point.length = 2 ^ k) (st : St) :
    1 < σm ∧ ∃ (s0 s1 : List Int) (st' : St) (log : List (ℂ × ℂ × Int)), samplePreimageFft R I S rnd B T point st = .ok ((s0, s1), st') ∧ Run S st log st' ∧ log.length = 2 * 2 ^ k ∧
      ∀ c ∈ log, ∃ s : ℝ, c.2.1 = (s : ℂ) ∧ (σm : ℝ) - 1 / 10 ^ 14 ≤ s ∧ s < Falcon.maxSigma := by
  obtain ⟨a, b, c, d⟩ := range_params hp
  obtain ⟨s0, s1, st', log, e, r, l, H⟩ := C112_calls hR h1 h2 h (b := 16822.4121) (by norm_num) a hx hb S hrnd hT hpt st
  refine ⟨by exact_mod_cast b, s0, s1, st', log, e, r, l, fun y hy => ?_⟩
  obtain ⟨s, i, j, t⟩ := H y hy
  exact ⟨s, t, c.trans i, lt_of_le_of_lt j d⟩

/-- **C112 (generated keys)**: with the test of `ntru_gen` made in exact arithmetic, every key it returns is such a key, and its set-up succeeds. -/
theorem C112_ntru_gen {R : Nat → Nat → ℂ} {I : ℂ} (hR : RootLaw R I) (P : Falcon.PolyLib) {St : Type} {k : ℕ} (h1 : 1 ≤ k) (h2 : k ≤ 10) (K : Ring.KOracle) (rf : ℕ) (tooLong : List ℤ → List ℤ → Bool)
    (hlong : ∀ f g x, f.length = 2 ^ k → g.length = 2 ^ k → gsNorm R I f g = .ok x → (tooLong f g = true ↔ x > 16822.4121)) (cand : ℕ → List ℤ × List ℤ)
    (hc : ∀ i, (cand i).1.length = 2 ^ k ∧ (cand i).2.length = 2 ^ k) (fuel : ℕ) (f g F G : List ℤ) (h : Falcon.ntruGen P K rf tooLong cand fuel 0 = some (.ok (f, g, F, G)))
    {σ σm : ℚ} (hp : Falcon.sigmas (2 ^ k) = some (σ, σm)) (S : LeafSampler St ℂ) {rnd : ℂ → Int} (hrnd : ∀ m : Int, rnd (m : ℂ) = m) {point : List Int} (hpt : point.length = 2 ^ k) (st : St) :
    ∃ B T s0 s1 st' log, mkTree R I sqrtC (σ : ℝ) (toK f) (toK g) (toK F) (toK G) = .ok (B, T) ∧ samplePreimageFft R I S rnd B T point st = .ok ((s0, s1), st') ∧ Run S st log st' ∧ log.length = 2 * 2 ^ k ∧
      ∀ c ∈ log, ∃ s : ℝ, c.2.1 = (s : ℂ) ∧ (σm : ℝ) - 1 / 10 ^ 14 ≤ s ∧ s < Falcon.maxSigma := by
  obtain ⟨n1, r1, r2, O, n2, -⟩ := C111_ntru_gen hR P h1 h2 K rf tooLong hlong cand hc fuel f g F G h
  obtain ⟨j, e1, ht, _, hs, _⟩ := Falcon.ntruGen_spec P K rf tooLong cand f g F G fuel 0 h
  have lf : f.length = 2 ^ k := by have := (hc (0 + j)).1; rwa [e1] at this
  have lg : g.length = 2 ^ k := by have := (hc (0 + j)).2; rwa [e1] at this
  have N := ntruSolve_ntru K rf lf lg hs
  have v := C111_value hR h1 h2 lf lg r1 r2 O
  obtain ⟨a, _⟩ := range_params hp
  obtain ⟨B, T, e, _⟩ := C71_key_setup hR h1 h2 N ((σ : ℝ) : ℂ)
  obtain ⟨_, s0, s1, st', log, H⟩ := C112_contract hR h1 h2 N hp v (max_le n1 n2) S hrnd e hpt st
  exact ⟨B, _, s0, s1, st', log, e, H⟩

/-! ## Non-vacuity: the key of `gsGen` in dimension 2 -/

example : ∃ (F G : List ℤ) (B : Mat ℂ) (T : Tree ℂ) (s0 s1 : List ℤ) (st' : ℕ) (log : List (ℂ × ℂ × ℤ)), Ring.ntruSolve Falcon.toyK 5 [100, 1] [50, 3] = .ok (some (F, G)) ∧
    mkTree exactRoots Complex.I sqrtC (((14481253976308423 / 10 ^ 14 : ℚ) : ℝ) : ℂ) (toK [100, 1]) (toK [50, 3]) (toK F) (toK G) = .ok (B, T) ∧
    samplePreimageFft exactRoots Complex.I (fun (st : Nat) _ _ => ((st : Int), st + 1)) (fun z => ⌊z.re⌋) B T [1000, 2000] 0 = .ok ((s0, s1), st') ∧
      Run (fun (st : Nat) _ _ => ((st : Int), st + 1)) 0 log st' ∧ log.length = 4 ∧
      ∀ c ∈ log, ∃ s : ℝ, c.2.1 = (s : ℂ) ∧ ((11165085072329104 / 10 ^ 16 : ℚ) : ℝ) - 1 / 10 ^ 14 ≤ s ∧ s < Falcon.maxSigma := by
  obtain ⟨F, G, h⟩ := gsGen
  obtain ⟨_, _, _, _, hs, _⟩ := Falcon.ntruGen_spec (Falcon.lib 2) Falcon.toyK 5 exactTooLong gsCand _ _ F G 2 0 h
  obtain ⟨B, T, s0, s1, st', log, a, b, r, c, d⟩ := C112_ntru_gen exactRoots_law (Falcon.lib 2) (k := 1) (by omega) (by omega) Falcon.toyK 5 exactTooLong (fun f g x _ _ => exactTooLong_spec f g x) gsCand
    (by intro i; unfold gsCand; split <;> exact ⟨rfl, rfl⟩) 2 _ _ _ _ h (hp := rfl) (fun (st : Nat) _ _ => ((st : Int), st + 1)) (rnd := fun z => ⌊z.re⌋) (by intro m; simp) (point := [1000, 2000]) rfl 0
  exact ⟨F, G, B, T, s0, s1, st', log, hs, a, b, r, c, d⟩

end Verif.FFT
