import Verif.CRef.SignTreeBy
import Verif.CRef.SignTreeInt
import Verif.CRef.TreeProps

/-! # C113: signing with an expanded key -/

namespace Verif.CRef.SignTree

open Verif.Ring Verif.CRef Verif.CRef.Kg Verif.CRef.Fpr Verif.CRef.Fft Verif.CRef.Orth Verif.CRef.SignSampler Verif.CRef.SignDyn Verif.Falcon

/-! ## The expanded key -/

theorem toFpr_length (f : List ℤ) (k : ℕ) : (toFpr f k).length = 2 ^ k := by unfold toFpr; rw [List.length_map, List.length_range]

theorem basis_lengths (f g F G : List ℤ) (s : ℕ) : (basis f g F G (s + 1)).1.length = 2 ^ (s + 1) ∧ (basis f g F G (s + 1)).2.1.length = 2 ^ (s + 1) ∧ (basis f g F G (s + 1)).2.2.1.length = 2 ^ (s + 1) ∧
    (basis f g F G (s + 1)).2.2.2.length = 2 ^ (s + 1) :=
  ⟨(fft_slot s _ (toFpr_length _ _)).1, (polyNeg_slot s _).1, (fft_slot s _ (toFpr_length _ _)).1, (polyNeg_slot s _).1⟩

theorem parts {α : Type} (a b c d x : List α) (n : ℕ) (ha : a.length = n) (hb : b.length = n) (hc : c.length = n) (hd : d.length = n) :
    ((a ++ b ++ c ++ d ++ x).drop (0 * n)).take n = a ∧ ((a ++ b ++ c ++ d ++ x).drop (1 * n)).take n = b ∧ ((a ++ b ++ c ++ d ++ x).drop (2 * n)).take n = c ∧ ((a ++ b ++ c ++ d ++ x).drop (3 * n)).take n = d ∧
      (a ++ b ++ c ++ d ++ x).drop (4 * n) = x := by
  have t : ∀ (p q : List α) (m : ℕ), p.length = m → (p ++ q).drop m = q := fun p q m h => by rw [← h]; exact List.drop_left
  have u : ∀ (p q : List α) (m : ℕ), p.length = m → (p ++ q).take m = p := fun p q m h => by rw [← h]; exact List.take_left
  refine ⟨?_, ?_, ?_, ?_, ?_⟩
  · rw [zero_mul, List.drop_zero, List.append_assoc, List.append_assoc, List.append_assoc, u _ _ _ ha]
  · rw [one_mul, List.append_assoc, List.append_assoc, List.append_assoc, t _ _ _ ha, u _ _ _ hb]
  · rw [List.append_assoc, List.append_assoc, t (a ++ b) _ _ (by rw [List.length_append, ha, hb]; ring), u _ _ _ hc]
  · rw [List.append_assoc, t (a ++ b ++ c) _ _ (by rw [List.length_append, List.length_append, ha, hb, hc]; ring), u _ _ _ hd]
  · exact t _ _ _ (by rw [List.length_append, List.length_append, List.length_append, ha, hb, hc, hd]; ring)

theorem expand_parts (f g F G : List ℤ) (k : ℕ) (h1 : 1 ≤ k) :
    (part (expandPrivkey f g F G k) 0 k, part (expandPrivkey f g F G k) 1 k, part (expandPrivkey f g F G k) 2 k, part (expandPrivkey f g F G k) 3 k) = basis f g F G k ∧
      (expandPrivkey f g F G k).drop (4 * 2 ^ k) = nodes k k (gram (basis f g F G k) k).1 (gram (basis f g F G k) k).2.1 (gram (basis f g F G k) k).2.2 := by
  obtain ⟨s, rfl⟩ : ∃ s, k = s + 1 := ⟨k - 1, by omega⟩
  obtain ⟨b0, b1, b2, b3⟩ := basis_lengths f g F G s
  unfold part expandPrivkey
  dsimp only
  rw [gram_eq]
  have n := normalize_eq (s + 1) (s + 1) (gram (basis f g F G (s + 1)) (s + 1)).1 (gram (basis f g F G (s + 1)) (s + 1)).2.1 (gram (basis f g F G (s + 1)) (s + 1)).2.2 []
  rw [List.append_nil] at n
  rw [n]
  generalize basis f g F G (s + 1) = b at *
  obtain ⟨p0, p1, p2, p3, p4⟩ := parts b.1 b.2.1 b.2.2.1 b.2.2.2 (nodes (s + 1) (s + 1) (gram b (s + 1)).1 (gram b (s + 1)).2.1 (gram b (s + 1)).2.2) (2 ^ (s + 1)) b0 b1 b2 b3
  rw [p0, p1, p2, p3]
  exact ⟨rfl, p4⟩

/-- **C113** (size): the expanded key has `(k + 5) * 2^k` numbers, as the callers allocate (inner.h 824-832). -/
theorem C113_size (f g F G : List ℤ) (k : ℕ) (h1 : 1 ≤ k) : (expandPrivkey f g F G k).length = (k + 5) * 2 ^ k := by
  obtain ⟨s, rfl⟩ : ∃ s, k = s + 1 := ⟨k - 1, by omega⟩
  obtain ⟨b0, b1, b2, b3⟩ := basis_lengths f g F G s
  unfold expandPrivkey
  dsimp only
  rw [gram_eq]
  have n := normalize_eq (s + 1) (s + 1) (gram (basis f g F G (s + 1)) (s + 1)).1 (gram (basis f g F G (s + 1)) (s + 1)).2.1 (gram (basis f g F G (s + 1)) (s + 1)).2.2 []
  rw [List.append_nil] at n
  rw [n, List.length_append, List.length_append, List.length_append, List.length_append, b0, b1, b2, b3, nodes_length]
  unfold treesize
  ring

/-! ## The two signers -/

/-- **C113** (refinement): an attempt with the expanded key is, bit for bit, the attempt of `do_sign_dyn` with the private key, except that polynomials with four coefficients are split and merged with
`fpr_invsqrt8` and `fpr_invsqrt2`: the stored tree is never wrong or misread. -/
theorem C113_refine {σ : Type} (samp : Samp σ) (f g F G : List ℤ) (hm : List ℕ) (k : ℕ) (h1 : 1 ≤ k) (st : σ) :
    doSignTree samp (expandPrivkey f g F G k) hm k st = doSignBy splitTree mergeTree samp f g F G hm k st := by
  obtain ⟨e1, e2⟩ := expand_parts f g F G k h1
  unfold doSignTree doSignBy
  dsimp only
  rw [e1, e2]
  have := tree_by samp k k h1 (gram (basis f g F G k) k).1 (gram (basis f g F G k) k).2.1 (gram (basis f g F G k) k).2.2 [] (target (basis f g F G k) hm k).1 (target (basis f g F G k) hm k).2 st
  rw [List.append_nil] at this
  rw [this]
  generalize ffSamplingBy splitTree mergeTree samp k k _ _ _ _ _ st = o
  cases o <;> rfl

/-- `doSignBy` with the routines of `do_sign_dyn` is `do_sign_dyn`. -/
theorem C113_dyn {σ : Type} (samp : Samp σ) (f g F G : List ℤ) (hm : List ℕ) (k : ℕ) (st : σ) : doSignBy polySplitFft polyMergeFft samp f g F G hm k st = doSignDyn samp f g F G hm k st := by
  unfold doSignBy doSignDyn
  dsimp only
  rw [by_dyn]
  generalize ffSampling samp k k _ _ _ _ _ st = o
  cases o <;> rfl

theorem by_cong {σ : Type} (s s' : List W → ℕ → List W × List W) (m m' : List W → List W → ℕ → List W) (samp : Samp σ) (orig : ℕ) : ∀ (k : ℕ) (_ : ∀ f j, j ≤ k → s f j = s' f j) (_ : ∀ a b j, j ≤ k → m a b j = m' a b j)
    (t0 t1 g00 g01 g11 : List W) (st : σ), ffSamplingBy s m samp orig k t0 t1 g00 g01 g11 st = ffSamplingBy s' m' samp orig k t0 t1 g00 g01 g11 st
  | 0, _, _, t0, t1, g00, g01, g11, st => by unfold ffSamplingBy; rfl
  | k + 1, hs, hm, t0, t1, g00, g01, g11, st => by
    have ih := by_cong s s' m m' samp orig k (fun f j hj => hs f j (by omega)) (fun a b j hj => hm a b j (by omega))
    unfold ffSamplingBy
    dsimp only
    simp only [hs _ (k + 1) le_rfl, hm _ _ (k + 1) le_rfl, ih]

/-- **C113** (Falcon-2): in degree 2 the two signers are the same, bit for bit. -/
theorem C113_degree2 {σ : Type} (samp : Samp σ) (f g F G : List ℤ) (hm : List ℕ) (st : σ) : doSignTree samp (expandPrivkey f g F G 1) hm 1 st = doSignDyn samp f g F G hm 1 st := by
  rw [C113_refine samp f g F G hm 1 le_rfl, ← C113_dyn]
  unfold doSignBy
  dsimp only
  rw [by_cong splitTree polySplitFft mergeTree polyMergeFft samp 1 1 (fun f j hj => by unfold splitTree; rw [if_neg (by omega)]) (fun a b j hj => by unfold mergeTree; rw [if_neg (by omega)])]

/-! ## Deviations -/

/-- The deviations asked for below a node, in order: they depend on the Gram matrix alone. -/
def leaves (orig : ℕ) : ℕ → List W → List W → List W → List W
  | 0, g00, _, _ => [mul (sqrt g00[0]!) invSigma[orig]!, mul (sqrt g00[0]!) invSigma[orig]!]
  | k + 1, g00, g01, g11 =>
    let d := polyLdlFft g00 g01 g11 (k + 1)
    let s0 := polySplitFft g00 (k + 1)
    let s1 := polySplitFft d.2 (k + 1)
    leaves orig k s1.1 s1.2 s1.1 ++ leaves orig k s0.1 s0.2 s0.1

theorem by_leaves {τ : Type} (split : List W → ℕ → List W × List W) (merge : List W → List W → ℕ → List W) (samp : Samp τ) (orig : ℕ) : ∀ (k : ℕ) (t0 t1 g00 g01 g11 : List W) (st : τ × List W) (r : List W × List W × (τ × List W)),
    ffSamplingBy split merge (spied samp) orig k t0 t1 g00 g01 g11 st = some r → r.2.2.2 = st.2 ++ leaves orig k g00 g01 g11
  | 0, t0, t1, g00, g01, g11, st, r, h => by
    unfold ffSamplingBy at h
    split at h
    · cases h
    next a ha =>
      split at h
      · cases h
      next b hb =>
        cases h
        unfold spied at ha hb
        obtain ⟨a', ha', rfl⟩ := Option.map_eq_some_iff.1 ha
        obtain ⟨b', hb', rfl⟩ := Option.map_eq_some_iff.1 hb
        unfold leaves
        simp
  | k + 1, t0, t1, g00, g01, g11, st, r, h => by
    unfold ffSamplingBy at h
    dsimp only at h
    split at h
    · cases h
    next a ha =>
      split at h
      · cases h
      next b hb =>
        cases h
        have i1 := by_leaves split merge samp orig k _ _ _ _ _ _ _ ha
        have i2 := by_leaves split merge samp orig k _ _ _ _ _ _ _ hb
        unfold leaves
        dsimp only
        rw [i2, i1, List.append_assoc]

theorem sign_leaves {τ : Type} (split : List W → ℕ → List W × List W) (merge : List W → List W → ℕ → List W) (samp : Samp τ) (f g F G : List ℤ) (hm : List ℕ) (k : ℕ) (st st' : τ) (r : Option (List ℤ)) (l : List W)
    (run : doSignBy split merge (spied samp) f g F G hm k (st, []) = some (r, (st', l))) : l = leaves k k (gram (basis f g F G k) k).1 (gram (basis f g F G k) k).2.1 (gram (basis f g F G k) k).2.2 := by
  unfold doSignBy at run
  dsimp only at run
  split at run
  · cases run
  next z hz =>
    have h := by_leaves split merge samp k k _ _ _ _ _ _ _ hz
    have run' := Option.some.inj run
    have : z.2.2.2 = l := congrArg (fun x => x.2.2) run'
    rw [← this, h]
    rfl

/-- **C113** (deviations): the two signers ask for the same deviations in the same order, whatever the samplers and the hashed messages. -/
theorem C113_same_deviations {τ τ' : Type} (samp : Samp τ) (samp' : Samp τ') (f g F G : List ℤ) (hm hm' : List ℕ) (k : ℕ) (h1 : 1 ≤ k) (s0 s1 : τ) (u0 u1 : τ') (r r' : Option (List ℤ)) (l l' : List W)
    (run : doSignTree (spied samp) (expandPrivkey f g F G k) hm k (s0, []) = some (r, (s1, l))) (run' : doSignDyn (spied samp') f g F G hm' k (u0, []) = some (r', (u1, l'))) : l = l' := by
  rw [C113_refine _ f g F G hm k h1] at run
  rw [← C113_dyn] at run'
  rw [sign_leaves _ _ _ _ _ _ _ _ _ _ _ _ _ run, sign_leaves _ _ _ _ _ _ _ _ _ _ _ _ _ run']

theorem total_by (split : List W → ℕ → List W × List W) (merge : List W → List W → ℕ → List W) {τ : Type} (samp : Samp τ) (total : ∀ st mu is, ∃ r, samp st mu is = some r) (orig : ℕ) : ∀ (k : ℕ) (t0 t1 g00 g01 g11 : List W) (st : τ),
    ∃ r, ffSamplingBy split merge samp orig k t0 t1 g00 g01 g11 st = some r
  | 0, t0, t1, g00, g01, g11, st => by
    unfold ffSamplingBy
    obtain ⟨a, ha⟩ := total st t0[0]! (mul (sqrt g00[0]!) invSigma[orig]!)
    obtain ⟨b, hb⟩ := total a.2 t1[0]! (mul (sqrt g00[0]!) invSigma[orig]!)
    rw [ha]; dsimp only
    rw [hb]; exact ⟨_, rfl⟩
  | k + 1, t0, t1, g00, g01, g11, st => by
    unfold ffSamplingBy
    dsimp only
    obtain ⟨a, ha⟩ := total_by split merge samp total orig k (split t1 (k + 1)).1 (split t1 (k + 1)).2 (polySplitFft (polyLdlFft g00 g01 g11 (k + 1)).2 (k + 1)).1 (polySplitFft (polyLdlFft g00 g01 g11 (k + 1)).2 (k + 1)).2 (polySplitFft (polyLdlFft g00 g01 g11 (k + 1)).2 (k + 1)).1 st
    rw [ha]
    dsimp only
    generalize split (polyAdd t0 _ (k + 1)) (k + 1) = x
    obtain ⟨b, hb⟩ := total_by split merge samp total orig k x.1 x.2 (polySplitFft g00 (k + 1)).1 (polySplitFft g00 (k + 1)).2 (polySplitFft g00 (k + 1)).1 a.2.2
    rw [hb]
    exact ⟨_, rfl⟩

/-- **C113** (deviations, key): for a Falcon key whose orthogonalized norm passes the test of key generation, every deviation the tree signer asks for suits the sampler (C98), whatever was drawn before. -/
theorem C113_deviations {τ : Type} (k : ℕ) (h1 : 1 ≤ k) (h2 : k ≤ 10) (f g F G : List ℤ) (h : List ℕ) (key : IsFalconKey (2 ^ k) (2 ^ (maxFgBits[k]! - 1) - 1) f g F G h) (r1 r2 : ℕ → ℝ) (hr : IsOrth k f g r1 r2)
    (hK : sqNorm k r1 r2 ≤ 16818) (samp : Samp τ) (hm : List ℕ) (st st' : τ) (r : Option (List ℤ)) (l : List W) (run : doSignTree (spied samp) (expandPrivkey f g F G k) hm k (st, []) = some (r, (st', l))) :
    ∀ isigma ∈ l, Suits k isigma := by
  have tot : ∀ (st : Unit × List W) mu is, ∃ r, spied (fun (u : Unit) _ _ => some (0, u)) st mu is = some r := fun st mu is => ⟨_, rfl⟩
  obtain ⟨z, hz⟩ := total_by polySplitFft polyMergeFft (spied fun (u : Unit) _ _ => some (0, u)) tot k k (target (basis f g F G k) hm k).1 (target (basis f g F G k) hm k).2 (gram (basis f g F G k) k).1
    (gram (basis f g F G k) k).2.1 (gram (basis f g F G k) k).2.2 ((), [])
  have : ∃ a, doSignDyn (spied fun (u : Unit) _ _ => some (0, u)) f g F G hm k ((), []) = some a := by
    rw [← C113_dyn]
    unfold doSignBy
    dsimp only
    rw [hz]
    exact ⟨_, rfl⟩
  obtain ⟨⟨a, u, l'⟩, ha⟩ := this
  have D := C108_deviations k h1 h2 f g F G h key r1 r2 hr hK _ hm () u a l' ha
  rw [C113_same_deviations _ _ f g F G hm hm k h1 _ _ _ _ _ _ _ _ run ha]
  exact D

/-! ## Signatures -/

/-- **C113** (recording): recording the drawn integers changes neither the result nor the sampler's state. -/
theorem C113_logged {σ : Type} (samp : Samp σ) (ek : List W) (hm : List ℕ) (logn : ℕ) (st : σ) (l : List ℤ) :
    (doSignTree (logged samp) ek hm logn (st, l)).map (fun r => (r.1, r.2.1)) = doSignTree samp ek hm logn st := by
  unfold doSignTree
  dsimp only
  generalize target _ hm logn = t
  have i := tree_logged samp logn (ek.drop (4 * 2 ^ logn)) t.1 t.2 st l
  rcases ha : ffSamplingTree (logged samp) logn (ek.drop (4 * 2 ^ logn)) t.1 t.2 (st, l) with _ | a
  · rw [ha] at i; rw [← i]; rfl
  · rw [ha] at i; rw [← i]; rfl

/-- **C113** (one attempt). Whatever the sampler returned, if the `2 n` drawn integers are at most 32768 in magnitude and the vector `(s1, s2)` they stand for fits 16 bits, then all floating-point errors
vanish: the attempt returns exactly `s2` when the exact norm is within the bound, and asks for another attempt otherwise. -/
theorem C113_attempt {σ : Type} (samp : Samp σ) (logn : ℕ) (h1 : 1 ≤ logn) (h2 : logn ≤ 10) (f g F G : List ℤ) (hf : Vec8 (2 ^ logn) f) (hg : Vec8 (2 ^ logn) g) (hF : Vec8 (2 ^ logn) F) (hG : Vec8 (2 ^ logn) G)
    (hm : List ℕ) (st st' : σ) (r : Option (List ℤ)) (l : List ℤ) (run : doSignTree (logged samp) (expandPrivkey f g F G logn) hm logn (st, []) = some (r, (st', l))) :
    l.length = 2 ^ (logn + 1) ∧ ((∀ x ∈ l, |x| ≤ 32768) → ∀ s1 s2, IsVector (2 ^ logn) f g F G hm (arrange logn l).1 (arrange logn l).2 s1 s2 → Vec16 (2 ^ logn) s1 → Vec16 (2 ^ logn) s2 →
      r = if normSq s1 + normSq s2 ≤ l2bound[logn]! then some s2 else none) := by
  have ep := (expand_parts f g F G logn h1).1
  obtain ⟨s, rfl⟩ : ∃ s, logn = s + 1 := ⟨logn - 1, by omega⟩
  unfold doSignTree at run
  dsimp only at run
  rw [ep] at run
  split at run
  · cases run
  next z hz =>
    obtain ⟨l', e, n, key⟩ := tree_int samp 32768 (by norm_num) (by norm_num) (s + 1) h2 _ _ _ _ _ hz
    have run' := Option.some.inj run
    have r1 := congrArg Prod.fst run'
    have r2 : z.2.2.2 = l := congrArg (fun x => x.2.2) run'
    dsimp only at r1
    rw [List.nil_append] at e
    rw [r2] at e
    subst e
    refine ⟨n, fun hl s1 s2 hp v1 v2 => ?_⟩
    obtain ⟨i0, i1⟩ := key hl
    rw [← r1]
    exact finish s (by omega) f g F G hf hg hF hG hm _ _ _ _ (by exact_mod_cast i0) (by exact_mod_cast i1) s1 s2 hp v1 v2

/-- **C113** (validity). A signature returned by `do_sign_tree` from an attempt that stays in range is valid for the public key: the verifier accepts it. -/
theorem C113_valid {σ : Type} (samp : Samp σ) (logn : ℕ) (h1 : 1 ≤ logn) (h2 : logn ≤ 10) (f g F G : List ℤ) (hf : Vec8 (2 ^ logn) f) (hg : Vec8 (2 ^ logn) g) (hF : Vec8 (2 ^ logn) F) (hG : Vec8 (2 ^ logn) G)
    (h c : List ℕ) (hk : KeyOf (2 ^ logn) f g F G h) (hc : c.length = 2 ^ logn) (st st' : σ) (s : List ℤ) (fit : FitsTree samp f g F G c logn st)
    (run : doSignTree samp (expandPrivkey f g F G logn) c logn st = some (some s, st')) : s.length = 2 ^ logn ∧ Accepts (2 ^ logn) l2bound[logn]! h c s := by
  rw [← C113_logged samp _ c logn st []] at run
  obtain ⟨⟨r, st'', l⟩, hr, he⟩ := Option.map_eq_some_iff.1 run
  cases he
  obtain ⟨b, v⟩ := fit _ _ _ hr
  obtain ⟨s1, s2, hp⟩ := point_exists (2 ^ logn) f g F G c (arrange logn l).1 (arrange logn l).2
  obtain ⟨v1, v2⟩ := v s1 s2 hp
  have key := (C113_attempt samp logn h1 h2 f g F G hf hg hF hG c st _ _ l hr).2 b s1 s2 hp v1 v2
  by_cases cnd : normSq s1 + normSq s2 ≤ l2bound[logn]!
  · rw [if_pos cnd] at key
    cases key
    exact ⟨v2.1, point_accepts logn h2 f g F G h c hf.1 hg.1 hF.1 hG.1 hc hk _ _ s1 s (arrange_length _ _).1 (arrange_length _ _).2 hp _ cnd⟩
  · rw [if_neg cnd] at key; cases key

theorem loop_iff (sfuel : ℕ) (buf : ℕ → Bytes) (ek : List W) (hm : List ℕ) (logn : ℕ) (s : List ℤ) (c' : Shake.Ctx) : ∀ (fuel i : ℕ) (c : Shake.Ctx),
    signTree sfuel buf ek hm logn fuel i c = some (s, c') ↔ ∃ k < fuel, (∀ j < k, ∃ p, doSignTree (zSampler logn sfuel) ek hm logn (attempt buf i c j).1 = some (none, p)) ∧
      (∃ p, doSignTree (zSampler logn sfuel) ek hm logn (attempt buf i c k).1 = some (some s, p)) ∧ c' = (attempt buf i c k).2
  | 0, i, c => by unfold signTree; simp
  | fuel + 1, i, c => by
    have e : signTree sfuel buf ek hm logn (fuel + 1) i c = match doSignTree (zSampler logn sfuel) ek hm logn (Prng.init (buf i) c).1 with
        | none => none
        | some r => match r.1 with
          | some s => some (s, (Prng.init (buf i) c).2)
          | none => signTree sfuel buf ek hm logn fuel (i + 1) (Prng.init (buf i) c).2 := rfl
    have a0 : attempt buf i c 0 = Prng.init (buf i) c := rfl
    have a1 : ∀ k, attempt buf i c (k + 1) = attempt buf (i + 1) (Prng.init (buf i) c).2 k := fun _ => rfl
    rw [e]
    obtain ⟨P, hP⟩ : ∃ P, Prng.init (buf i) c = P := ⟨_, rfl⟩
    rw [hP] at a0 a1 ⊢
    rcases hd : doSignTree (zSampler logn sfuel) ek hm logn P.1 with _ | ⟨r, p⟩
    · refine ⟨fun h => (by cases h), ?_⟩
      rintro ⟨k, _, hj, ⟨p, hp⟩, _⟩
      rcases k with _ | k
      · rw [a0, hd] at hp; cases hp
      · obtain ⟨p, hp⟩ := hj 0 (by omega)
        rw [a0, hd] at hp; cases hp
    · rcases r with _ | s'
      · dsimp only
        rw [loop_iff sfuel buf ek hm logn s c' fuel (i + 1) P.2]
        constructor
        · rintro ⟨k, hk, hj, hp, hc⟩
          refine ⟨k + 1, by omega, fun j hjk => ?_, by rw [a1]; exact hp, by rw [a1]; exact hc⟩
          rcases j with _ | j
          · exact ⟨p, by rw [a0]; exact hd⟩
          · rw [a1]; exact hj j (by omega)
        · rintro ⟨k, hk, hj, hp, hc⟩
          rcases k with _ | k
          · obtain ⟨q, hq⟩ := hp
            rw [a0, hd] at hq; cases hq
          · exact ⟨k, by omega, fun j hjk => by have := hj (j + 1) (by omega); rwa [a1] at this, by rwa [a1] at hp, by rwa [a1] at hc⟩
      · dsimp only
        constructor
        · intro h
          cases h
          exact ⟨0, by omega, fun j hj => by omega, ⟨p, by rw [a0]; exact hd⟩, by rw [a0]⟩
        · rintro ⟨k, hk, hj, ⟨q, hq⟩, hc⟩
          rcases k with _ | k
          · rw [a0, hd] at hq; cases hq
            rw [a0] at hc; rw [hc]
          · obtain ⟨p', hp'⟩ := hj 0 (by omega)
            rw [a0, hd] at hp'; cases hp'

/-- **C113** (`sign_tree`): the signature is the one of the first attempt that passes the norm check; the generator of every attempt is seeded anew from the SHAKE context. -/
theorem C113_loop (sfuel : ℕ) (buf : ℕ → Bytes) (ek : List W) (hm : List ℕ) (logn fuel : ℕ) (c c' : Shake.Ctx) (s : List ℤ) :
    signTree sfuel buf ek hm logn fuel 0 c = some (s, c') ↔ ∃ k < fuel, (∀ j < k, ∃ p, doSignTree (zSampler logn sfuel) ek hm logn (attempt buf 0 c j).1 = some (none, p)) ∧
      (∃ p, doSignTree (zSampler logn sfuel) ek hm logn (attempt buf 0 c k).1 = some (some s, p)) ∧ c' = (attempt buf 0 c k).2 :=
  loop_iff sfuel buf ek hm logn s c' fuel 0 c

/-- **C113** (`sign_tree`, validity): with the sampler of C98 and the generator of C95, if the attempts stay in range, the signature is valid for the public key. -/
theorem C113_sign_tree (sfuel : ℕ) (buf : ℕ → Bytes) (logn fuel : ℕ) (h1 : 1 ≤ logn) (h2 : logn ≤ 10) (f g F G : List ℤ) (hf : Vec8 (2 ^ logn) f) (hg : Vec8 (2 ^ logn) g) (hF : Vec8 (2 ^ logn) F)
    (hG : Vec8 (2 ^ logn) G) (h c : List ℕ) (hk : KeyOf (2 ^ logn) f g F G h) (hc : c.length = 2 ^ logn) (rng rng' : Shake.Ctx) (s : List ℤ)
    (fit : ∀ i < fuel, FitsTree (zSampler logn sfuel) f g F G c logn (attempt buf 0 rng i).1) (run : signTree sfuel buf (expandPrivkey f g F G logn) c logn fuel 0 rng = some (s, rng')) :
    s.length = 2 ^ logn ∧ Accepts (2 ^ logn) l2bound[logn]! h c s := by
  obtain ⟨k, hkf, _, ⟨p, hp⟩, _⟩ := (C113_loop sfuel buf _ c logn fuel rng rng' s).1 run
  exact C113_valid _ logn h1 h2 f g F G hf hg hF hG h c hk hc _ p s (fit k hkf) hp

set_option maxRecDepth 100000 in
/-- A concrete attempt with an expanded key: it stays in range and returns the exact vector (C113_attempt is not vacuous). -/
example : doSignTree (fun (u : Unit) _ _ => some (1, u)) (expandPrivkey [111, 0] [8, 0] [4, 0] [111, 0] 1) [119, 0] 1 () = some (some [115, 115], ()) := by
  have h : ∃ r, doSignTree (logged fun (u : Unit) _ _ => some (1, u)) (expandPrivkey [111, 0] [8, 0] [4, 0] [111, 0] 1) [119, 0] 1 ((), []) = some (r, ((), [1, 1, 1, 1])) := by
    rw [C113_degree2]
    exact ⟨_, rfl⟩
  obtain ⟨r, hr⟩ := h
  have v : ∀ a b : ℤ, -128 ≤ a ∧ a ≤ 127 → -128 ≤ b ∧ b ≤ 127 → Vec8 (2 ^ 1) [a, b] := by
    intro a b ha hb
    refine ⟨rfl, fun x hx => ?_⟩
    simp only [List.mem_cons, List.not_mem_nil, or_false] at hx
    rcases hx with rfl | rfl
    · exact ha
    · exact hb
  have key := (C113_attempt _ 1 (by norm_num) (by norm_num) [111, 0] [8, 0] [4, 0] [111, 0] (v _ _ (by norm_num) (by norm_num)) (v _ _ (by norm_num) (by norm_num)) (v _ _ (by norm_num) (by norm_num))
    (v _ _ (by norm_num) (by norm_num)) [119, 0] () () r _ hr).2 (by decide) [0, -119] [115, 115] (by unfold IsVector; decide) ⟨rfl, by unfold IsInt16; decide⟩ ⟨rfl, by unfold IsInt16; decide⟩
  rw [if_pos (by decide)] at key
  subst key
  rw [← C113_logged _ _ _ _ _ [], hr]
  rfl

set_option maxRecDepth 100000 in
/-- Concrete deviations asked for by the tree signer with a real Falcon-2 key (C113_deviations is not vacuous). -/
example : ∃ r, doSignTree (spied fun (u : Unit) _ _ => some (1, u)) (expandPrivkey [-56, 55] [-74, -25] [99, -16] [-53, -29] 1) [119, 0] 1 ((), []) =
    some (r, ((), [4605077927322569789, 4605077927322569789, 4605062761474251217, 4605062761474251217])) := by
  rw [C113_degree2]
  exact ⟨_, rfl⟩

end Verif.CRef.SignTree
