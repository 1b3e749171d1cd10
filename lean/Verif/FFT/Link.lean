import Verif.FFT.Key

/-! From the key to the signature: `SecretKey.__init__` and `sample_preimage` in exact arithmetic. -/

namespace Verif.FFT

open Finset Complex

set_option linter.unusedSectionVars false

/-- The NTRU equation `f G - g F = q` modulo `x^n + 1`, on integer lists. -/
def Ntru (n : Nat) (f g F G : List Int) : Prop :=
  f.length = n ∧ g.length = n ∧ F.length = n ∧ G.length = n ∧
  ∀ i < n, (Ring.negMul n f G).getD i 0 - (Ring.negMul n g F).getD i 0 = if i = 0 then 12289 else 0

theorem toK_negMul (n : Nat) (a b : List Int) : (toK (Ring.negMul n a b) : List ℂ) = Ring.negMul n (toK a) (toK b) := by
  unfold Ring.negMul
  conv_lhs => unfold toK
  rw [List.map_map]
  apply List.map_congr_left
  intro k _
  simp only [Function.comp, Ring.negCoeff]
  push_cast
  apply sum_congr rfl; intro i _
  apply sum_congr rfl; intro j _
  rw [getD_toK, getD_toK]

variable {R : Nat → Nat → ℂ} {I : ℂ} (hR : RootLaw R I)

theorem evalAt_toK_negMul {n : Nat} {r : ℂ} (hr : r ^ n = -1) {a b : List Int} (ha : a.length = n) (hb : b.length = n) :
    evalAt r (toK (Ring.negMul n a b)) = evalAt r (toK a) * evalAt r (toK b) := by
  rw [toK_negMul, evalAt_negMul hr (by rw [length_toK, ha]) (by rw [length_toK, hb])]

theorem evalAt_toK (r : ℂ) (n : Nat) (a : List Int) (h : a.length = n) : evalAt r (toK a) = ∑ i ∈ range n, ((a.getD i 0 : Int) : ℂ) * r ^ i := by
  unfold evalAt
  rw [length_toK, h]
  apply sum_congr rfl; intro i _
  rw [getD_toK]

theorem ntru_eval {n : Nat} {f g F G : List Int} (h : Ntru n f g F G) (hn : 0 < n) {r : ℂ} (hr : r ^ n = -1) :
    evalAt r (toK f) * evalAt r (toK G) - evalAt r (toK g) * evalAt r (toK F) = 12289 := by
  obtain ⟨hf, hg, hF, hG, h⟩ := h
  rw [← evalAt_toK_negMul hr hf hG, ← evalAt_toK_negMul hr hg hF, evalAt_toK r n _ (by simp), evalAt_toK r n _ (by simp), ← sum_sub_distrib]
  rw [sum_eq_single 0]
  · have := h 0 hn
    rw [if_pos rfl] at this
    rw [pow_zero, mul_one, mul_one]
    exact_mod_cast congrArg (fun x : Int => (x : ℂ)) this
  · intro i hi h0
    have := h i (by simpa using hi)
    rw [if_neg h0] at this
    have : (((Ring.negMul n f G).getD i 0 : Int) : ℂ) - (((Ring.negMul n g F).getD i 0 : Int) : ℂ) = 0 := by exact_mod_cast congrArg (fun x : Int => (x : ℂ)) this
    rw [← sub_mul, this, zero_mul]
  · intro h'; simp at h'; omega

theorem normSq_star (z : ℂ) : z * star z = ((normSq z : ℝ) : ℂ) := mul_conj z

include hR

/-- The Gram matrix of the secret basis, in FFT representation: its values. -/
theorem key_gram {k : Nat} (h1 : 1 ≤ k) (h2 : k ≤ 10) {f g F G : List Int} (h : Ntru (2 ^ k) f g F G) :
    ∃ G0, gram R I ⟨toK g, neg (toK f), toK G, neg (toK F)⟩ = .ok G0 ∧ G0.Len (2 ^ k) ∧ G0.Real ∧
      ∀ i < 2 ^ k, let r := R (2 ^ k) i
        evalAt r G0.a = evalAt r (toK g) * star (evalAt r (toK g)) + evalAt r (toK f) * star (evalAt r (toK f)) ∧
        evalAt r G0.b = evalAt r (toK g) * star (evalAt r (toK G)) + evalAt r (toK f) * star (evalAt r (toK F)) ∧
        evalAt r G0.c = evalAt r (toK G) * star (evalAt r (toK g)) + evalAt r (toK F) * star (evalAt r (toK f)) ∧
        evalAt r G0.d = evalAt r (toK G) * star (evalAt r (toK G)) + evalAt r (toK F) * star (evalAt r (toK F)) := by
  obtain ⟨hf, hg, hF, hG, _⟩ := h
  have B1 : Mat.Len (⟨toK g, neg (toK f), toK G, neg (toK F)⟩ : Mat ℂ) (2 ^ k) :=
    ⟨by simp [length_toK, hg], by simp [length_neg, length_toK, hf], by simp [length_toK, hG], by simp [length_neg, length_toK, hF]⟩
  have B2 : Mat.Real (⟨toK g, neg (toK f), toK G, neg (toK F)⟩ : Mat ℂ) := ⟨real_toK g, real_neg (real_toK f), real_toK G, real_neg (real_toK F)⟩
  obtain ⟨G0, e, l, r, m⟩ := gram_eq hR h1 h2 B1 B2
  refine ⟨G0, e, l, r, ?_⟩
  intro i hi
  have hr := hR.pow h1 h2 i hi
  have hu := hR.unit k i h1 h2 hi
  have BL := Mat.Len.mat hR B1
  have BR := Mat.Real.mat hR B2
  have main : ∀ s t, evalAt (R (2 ^ k) i) (G0.mat s t) = evalAt (R (2 ^ k) i) ((⟨toK g, neg (toK f), toK G, neg (toK F)⟩ : Mat ℂ).mat s 0) * star (evalAt (R (2 ^ k) i) ((⟨toK g, neg (toK f), toK G, neg (toK F)⟩ : Mat ℂ).mat t 0)) +
      evalAt (R (2 ^ k) i) ((⟨toK g, neg (toK f), toK G, neg (toK F)⟩ : Mat ℂ).mat s 1) * star (evalAt (R (2 ^ k) i) ((⟨toK g, neg (toK f), toK G, neg (toK F)⟩ : Mat ℂ).mat t 1)) := by
    intro s t
    have LA : ∀ i j, (pmatAdj (⟨toK g, neg (toK f), toK G, neg (toK F)⟩ : Mat ℂ).mat i j).length = 2 ^ k := fun i j => by unfold pmatAdj; rw [length_adjSpec]; exact BL j i
    rw [m, evalAt_pmatMul hR h1 h2 BL LA hi]
    unfold pmatAdj
    rw [evalAt_adjSpec hr hu (BL t 0) (BR t 0), evalAt_adjSpec hr hu (BL t 1) (BR t 1)]
  have m00 := main 0 0
  have m01 := main 0 1
  have m10 := main 1 0
  have m11 := main 1 1
  simp only [Mat.mat, Matrix.of_apply, Matrix.cons_val', Matrix.cons_val_zero, Matrix.cons_val_one, Matrix.cons_val_fin_one, evalAt_neg, star_neg, neg_mul_neg] at m00 m01 m10 m11
  exact ⟨m00, m01, m10, m11⟩

/-- Creating a key never fails when the NTRU equation holds: the tree exists, has the expected shape, and all its leaves are positive. -/
theorem mkTree_ok {k : Nat} (h1 : 1 ≤ k) (h2 : k ≤ 10) {f g F G : List Int} (h : Ntru (2 ^ k) f g F G) (sigma : ℂ) :
    ∃ Gm T, mkTree R I sqrtC sigma (toK f) (toK g) (toK F) (toK G) =
        .ok (⟨tr R k (toK g), tr R k (neg (toK f)), tr R k (toK G), tr R k (neg (toK F))⟩, normalizeTree sqrtC sigma T) ∧
      ffldlFft R Gm = .ok T ∧ Good R k Gm ∧ LeafPos T ∧ Shaped k T ∧
      ∀ i < 2 ^ k, let r := R (2 ^ k) i
        Gm.a.getD i 0 = evalAt r (toK g) * star (evalAt r (toK g)) + evalAt r (toK f) * star (evalAt r (toK f)) ∧
        Gm.b.getD i 0 = evalAt r (toK g) * star (evalAt r (toK G)) + evalAt r (toK f) * star (evalAt r (toK F)) ∧
        Gm.c.getD i 0 = evalAt r (toK G) * star (evalAt r (toK g)) + evalAt r (toK F) * star (evalAt r (toK f)) ∧
        Gm.d.getD i 0 = evalAt r (toK G) * star (evalAt r (toK G)) + evalAt r (toK F) * star (evalAt r (toK F)) := by
  obtain ⟨G0, eG, lG, rG, vG⟩ := key_gram hR h1 h2 h
  have hN := h
  obtain ⟨hf, hg, hF, hG, _⟩ := h
  let Gm : Mat ℂ := ⟨tr R k G0.a, tr R k G0.b, tr R k G0.c, tr R k G0.d⟩
  have gd : ∀ (x : List ℂ) i, i < 2 ^ k → (tr R k x).getD i 0 = evalAt (R (2 ^ k) i) x := fun x i hi => getD_vec_lt hi
  have val : ∀ i < 2 ^ k, let r := R (2 ^ k) i
        Gm.a.getD i 0 = evalAt r (toK g) * star (evalAt r (toK g)) + evalAt r (toK f) * star (evalAt r (toK f)) ∧
        Gm.b.getD i 0 = evalAt r (toK g) * star (evalAt r (toK G)) + evalAt r (toK f) * star (evalAt r (toK F)) ∧
        Gm.c.getD i 0 = evalAt r (toK G) * star (evalAt r (toK g)) + evalAt r (toK F) * star (evalAt r (toK f)) ∧
        Gm.d.getD i 0 = evalAt r (toK G) * star (evalAt r (toK G)) + evalAt r (toK F) * star (evalAt r (toK F)) := by
    intro i hi
    obtain ⟨a, b, c, d⟩ := vG i hi
    refine ⟨?_, ?_, ?_, ?_⟩
    · rw [← a]; exact gd _ i hi
    · rw [← b]; exact gd _ i hi
    · rw [← c]; exact gd _ i hi
    · rw [← d]; exact gd _ i hi
  have good : Good R k Gm := by
    refine ⟨⟨length_tr _ _ _, length_tr _ _ _, length_tr _ _ _, length_tr _ _ _⟩, selfConj_eval hR rG.1, selfConj_eval hR rG.2.2.1, selfConj_eval hR rG.2.2.2, ?_, ?_, ?_⟩
    · intro i hi
      rw [(val i hi).1]; simp only [star_add, star_mul', star_star]; ring
    · intro i hi
      rw [(val i hi).2.2.2]; simp only [star_add, star_mul', star_star]; ring
    · intro i hi
      rw [(val i hi).2.1, (val i hi).2.2.1]; simp only [star_add, star_mul', star_star]; ring
  have pa : ∀ i < 2 ^ k, ∃ δ : ℝ, 0 < δ ∧ Gm.a.getD i 0 = (δ : ℂ) := by
    intro i hi
    refine ⟨normSq (evalAt (R (2 ^ k) i) (toK g)) + normSq (evalAt (R (2 ^ k) i) (toK f)), ?_, ?_⟩
    · have hne : ¬(evalAt (R (2 ^ k) i) (toK g) = 0 ∧ evalAt (R (2 ^ k) i) (toK f) = 0) := by
        rintro ⟨a, b⟩
        have := ntru_eval hN (by positivity) (hR.pow h1 h2 i hi)
        rw [a, b] at this
        norm_num at this
      rcases not_and_or.1 hne with hx | hx
      · have := normSq_pos.2 hx
        have := normSq_nonneg (evalAt (R (2 ^ k) i) (toK f))
        linarith
      · have := normSq_pos.2 hx
        have := normSq_nonneg (evalAt (R (2 ^ k) i) (toK g))
        linarith
    · rw [(val i hi).1, normSq_star, normSq_star]; push_cast; rfl
  have pd : PosVec (2 ^ k) (vec (2 ^ k) fun i => Gm.d.getD i 0 - Gm.c.getD i 0 / Gm.a.getD i 0 * star (Gm.c.getD i 0 / Gm.a.getD i 0) * Gm.a.getD i 0) := by
    intro i hi
    obtain ⟨δ, hd, e⟩ := pa i hi
    refine ⟨12289 ^ 2 / δ, by positivity, ?_⟩
    have hne : (δ : ℂ) ≠ 0 := by exact_mod_cast hd.ne'
    have hs : star (δ : ℂ) = δ := conj_ofReal δ
    have hdet := ntru_eval hN (by positivity) (hR.pow h1 h2 i hi)
    have hdet' := congrArg star hdet
    simp only [star_sub, star_mul', star_ofNat] at hdet'
    obtain ⟨va, vb, vc, vd⟩ := val i hi
    rw [getD_vec_lt hi, e, star_div₀, hs]
    have goal : Gm.d.getD i 0 * (δ : ℂ) - Gm.c.getD i 0 * star (Gm.c.getD i 0) = 12289 ^ 2 := by
      rw [← e, vd, va, vc]
      simp only [star_add, star_mul', star_star]
      linear_combination (evalAt (R (2 ^ k) i) (toK f) * evalAt (R (2 ^ k) i) (toK G) - evalAt (R (2 ^ k) i) (toK g) * evalAt (R (2 ^ k) i) (toK F)) * hdet' + 12289 * hdet
    rw [show ((12289 ^ 2 / δ : ℝ) : ℂ) = 12289 ^ 2 / (δ : ℂ) by push_cast; rfl, ← goal]
    field_simp
  obtain ⟨j, rfl⟩ : ∃ j, k = j + 1 := ⟨k - 1, by omega⟩
  have hfuel : j < Gm.a.length + 1 := by
    rw [good.len.1]
    have := Nat.lt_two_pow_self (n := j + 1)
    omega
  obtain ⟨T, eT, pT, sT⟩ := ffldl_total hR j h2 (Gm.a.length + 1) Gm good pa pd hfuel
  refine ⟨Gm, T, ?_, eT, good, pT, sT, val⟩
  have eT' : ffldlFft R Gm = .ok T := eT
  unfold mkTree
  dsimp only
  rw [eG]
  dsimp only
  rw [fft_eq hR h1 h2 (by rw [length_toK, hg]), fft_eq hR h1 h2 (by rw [length_neg, length_toK, hf]), fft_eq hR h1 h2 (by rw [length_toK, hG]), fft_eq hR h1 h2 (by rw [length_neg, length_toK, hF])]
  dsimp only
  rw [fft_eq hR h1 h2 lG.1, fft_eq hR h1 h2 lG.2.1, fft_eq hR h1 h2 lG.2.2.1, fft_eq hR h1 h2 lG.2.2.2]
  dsimp only
  have eT'' : ffldlFft R ⟨vec (2 ^ (j + 1)) fun i => evalAt (R (2 ^ (j + 1)) i) G0.a, vec (2 ^ (j + 1)) fun i => evalAt (R (2 ^ (j + 1)) i) G0.b,
    vec (2 ^ (j + 1)) fun i => evalAt (R (2 ^ (j + 1)) i) G0.c, vec (2 ^ (j + 1)) fun i => evalAt (R (2 ^ (j + 1)) i) G0.d⟩ = .ok T := eT'
  rw [eT'']
  rfl

theorem toK_padd {n : Nat} {a b : List Int} (ha : a.length = n) (hb : b.length = n) (r : ℂ) : evalAt r (toK (Falcon.padd a b)) = evalAt r (toK a) + evalAt r (toK b) := by
  have hl : (Falcon.padd a b).length = n := by simp [Falcon.padd, ha, hb]
  rw [evalAt_toK r n _ hl, evalAt_toK r n _ ha, evalAt_toK r n _ hb, ← sum_add_distrib]
  apply sum_congr rfl; intro i hi
  have hi : i < n := by simpa using hi
  have : (Falcon.padd a b).getD i 0 = a.getD i 0 + b.getD i 0 := by
    simp [Falcon.padd, List.getD_eq_getElem?_getD, List.getElem?_zipWith, List.getElem?_eq_getElem (show i < a.length by omega), List.getElem?_eq_getElem (show i < b.length by omega)]
  rw [this]; push_cast; ring

theorem toK_psub {n : Nat} {a b : List Int} (ha : a.length = n) (hb : b.length = n) (r : ℂ) : evalAt r (toK (Falcon.psub a b)) = evalAt r (toK a) - evalAt r (toK b) := by
  have hl : (Falcon.psub a b).length = n := by simp [Falcon.psub, ha, hb]
  rw [evalAt_toK r n _ hl, evalAt_toK r n _ ha, evalAt_toK r n _ hb, ← sum_sub_distrib]
  apply sum_congr rfl; intro i hi
  have hi : i < n := by simpa using hi
  have : (Falcon.psub a b).getD i 0 = a.getD i 0 - b.getD i 0 := by
    simp [Falcon.psub, List.getD_eq_getElem?_getD, List.getElem?_zipWith, List.getElem?_eq_getElem (show i < a.length by omega), List.getElem?_eq_getElem (show i < b.length by omega)]
  rw [this]; push_cast; ring

theorem toK_pneg (a : List Int) (r : ℂ) : evalAt r (toK (Falcon.pneg a)) = -evalAt r (toK a) := by
  have hl : (Falcon.pneg a).length = a.length := by simp [Falcon.pneg]
  rw [evalAt_toK r a.length _ hl, evalAt_toK r a.length _ rfl, ← sum_neg_distrib]
  apply sum_congr rfl; intro i hi
  have : (Falcon.pneg a).getD i 0 = -a.getD i 0 := by
    simp only [Falcon.pneg, List.getD_eq_getElem?_getD, List.getElem?_map]
    cases a[i]? <;> simp
  rw [this]; push_cast; ring

theorem sumSq_range {n : Nat} {a : List Int} (ha : a.length = n) : ((Falcon.sumSq a : Int) : ℂ) = ∑ i ∈ range n, (toK a : List ℂ).getD i 0 * (toK a : List ℂ).getD i 0 := by
  have : ∀ a : List Int, Falcon.sumSq a = ∑ i ∈ range a.length, a.getD i 0 * a.getD i 0 := by
    intro a
    induction a with
    | nil => rfl
    | cons x xs ih =>
      rw [List.length_cons, sum_range_succ', show Falcon.sumSq (x :: xs) = x ^ 2 + Falcon.sumSq xs from by simp [Falcon.sumSq], ih]
      simp only [List.getD_cons_succ, List.getD_cons_zero]; ring
  rw [this, ha]
  push_cast
  apply sum_congr rfl; intro i _
  rw [getD_toK]

/-- `sample_preimage` in exact arithmetic: the result is the integer computation on the sampled `z`, and its squared length is what the sampler calls say. -/
theorem preimage_ok {St : Type} {k : Nat} (h1 : 1 ≤ k) (h2 : k ≤ 10) {f g F G : List Int} (h : Ntru (2 ^ k) f g F G) {sigma : ℂ} (hs : sigma ≠ 0) (S : LeafSampler St ℂ)
    {rnd : ℂ → Int} (hrnd : ∀ m : Int, rnd (m : ℂ) = m) {B : Mat ℂ} {T : Tree ℂ} (hT : mkTree R I sqrtC sigma (toK f) (toK g) (toK F) (toK G) = .ok (B, T))
    {point : List Int} (hp : point.length = 2 ^ k) (st : St) (hpk : List Int) :
    ∃ z0 z1 st' log, z0.length = 2 ^ k ∧ z1.length = 2 ^ k ∧
      samplePreimageFft R I (logged S) rnd B T point (st, []) = .ok (Falcon.samplePreimage (2 ^ k) ⟨f, g, F, G, hpk⟩ point (z0, z1), (st', log)) ∧
      log.length = 2 * 2 ^ k ∧
      (((Falcon.sumSq (Falcon.samplePreimage (2 ^ k) ⟨f, g, F, G, hpk⟩ point (z0, z1)).1 + Falcon.sumSq (Falcon.samplePreimage (2 ^ k) ⟨f, g, F, G, hpk⟩ point (z0, z1)).2 : Int)) : ℂ) =
        sigma ^ 2 * logSum log := by
  obtain ⟨Gm, T', e, eT, good, pT, sT, val⟩ := mkTree_ok hR h1 h2 h sigma
  rw [hT] at e
  injection e with e
  injection e with eB eTT
  subst eB eTT
  have hN := h
  obtain ⟨hf, hg, hF, hG, _⟩ := h
  have hn : 0 < 2 ^ k := by positivity
  -- the targets are transforms of real polynomials
  have sc0 : SelfConj R (vec (2 ^ k) fun i => evalAt (R (2 ^ k) i) (toK point) * evalAt (R (2 ^ k) i) (neg (toK F)) / 12289) := by
    apply selfConj_vec_of hR
    intro i j hi hj hij
    rw [hij, ← star_evalAt (real_toK point), ← star_evalAt (real_neg (real_toK F)), star_div₀, star_mul', star_ofNat]
  have sc1 : SelfConj R (vec (2 ^ k) fun i => -evalAt (R (2 ^ k) i) (toK point) * evalAt (R (2 ^ k) i) (neg (toK f)) / 12289) := by
    apply selfConj_vec_of hR
    intro i j hi hj hij
    rw [hij, ← star_evalAt (real_toK point), ← star_evalAt (real_neg (real_toK f)), star_div₀, star_mul', star_neg, star_ofNat]
  obtain ⟨x0, _, lx0, rx0, ex0⟩ := ifft_selfConj hR h1 h2 (length_vec _ _) sc0
  obtain ⟨x1, _, lx1, rx1, ex1⟩ := ifft_selfConj hR h1 h2 (length_vec _ _) sc1
  rw [fft_eq hR h1 h2 lx0] at ex0
  rw [fft_eq hR h1 h2 lx1] at ex1
  injection ex0 with ex0
  injection ex1 with ex1
  obtain ⟨j, rfl⟩ : ∃ j, k = j + 1 := ⟨k - 1, by omega⟩
  obtain ⟨z0, z1, st', log, lz0, lz1, run, ll, sum⟩ := node_ok hR S sqrtC hs j h2 (2 ^ (j + 1) + 1) _ Gm T' x0 x1 st [] good eT (leafSq_of_pos _ pT) lx0 lx1 rx0 rx1
    (by have := Nat.lt_two_pow_self (n := j + 1); omega)
  rw [List.nil_append] at run
  set n := 2 ^ (j + 1) with hnd
  have nf : (neg (toK f) : List ℂ).length = n := by rw [length_neg, length_toK, hf]
  -- the integer vectors
  obtain ⟨V0, hV0⟩ : ∃ V, V = Falcon.padd (Falcon.pmul n z0 g) (Falcon.pmul n z1 G) := ⟨_, rfl⟩
  obtain ⟨V1, hV1⟩ : ∃ V, V = Falcon.padd (Falcon.pmul n z0 (Falcon.pneg f)) (Falcon.pmul n z1 (Falcon.pneg F)) := ⟨_, rfl⟩
  have lV0 : V0.length = n := by rw [hV0]; simp [Falcon.padd]
  have lV1 : V1.length = n := by rw [hV1]; simp [Falcon.padd]
  have eV0 : ∀ i < n, evalAt (R n i) (toK V0) = evalAt (R n i) (toK z0) * evalAt (R n i) (toK g) + evalAt (R n i) (toK z1) * evalAt (R n i) (toK G) := by
    intro i hi
    have hr := hR.pow h1 h2 i hi
    rw [hV0, toK_padd hR (n := n) (by simp) (by simp), Falcon.pmul_eq, Falcon.pmul_eq, evalAt_toK_negMul hr lz0 hg, evalAt_toK_negMul hr lz1 hG]
  have eV1 : ∀ i < n, evalAt (R n i) (toK V1) = -(evalAt (R n i) (toK z0) * evalAt (R n i) (toK f) + evalAt (R n i) (toK z1) * evalAt (R n i) (toK F)) := by
    intro i hi
    have hr := hR.pow h1 h2 i hi
    rw [hV1, toK_padd hR (n := n) (by simp) (by simp), Falcon.pmul_eq, Falcon.pmul_eq, evalAt_toK_negMul hr lz0 (show (Falcon.pneg f).length = n by rw [← hf]; simp [Falcon.pneg]), evalAt_toK_negMul hr lz1 (show (Falcon.pneg F).length = n by rw [← hF]; simp [Falcon.pneg]),
      toK_pneg hR, toK_pneg hR]
    ring
  refine ⟨z0, z1, st', log, lz0, lz1, ?_, ?_, ?_⟩
  · unfold samplePreimageFft preimageFft
    rw [show (point.map fun x : Int => (x : ℂ)) = toK point from rfl, fft_eq hR h1 h2 (by rw [length_toK, hp])]
    dsimp only
    have t0 : ((List.range (vec (2 ^ (j + 1)) fun i => evalAt (R (2 ^ (j + 1)) i) (toK point)).length).map fun i =>
        (vec (2 ^ (j + 1)) fun i => evalAt (R (2 ^ (j + 1)) i) (toK point)).getD i 0 * (tr R (j + 1) (neg (toK F))).getD i 0 / 12289) = tr R (j + 1) x0 := by
      rw [length_vec]
      unfold tr
      rw [ex0]
      apply vec_congr; intro i hi
      rw [getD_vec_lt hi, getD_vec_lt hi]
    have t1 : ((List.range (vec (2 ^ (j + 1)) fun i => evalAt (R (2 ^ (j + 1)) i) (toK point)).length).map fun i =>
        -(vec (2 ^ (j + 1)) fun i => evalAt (R (2 ^ (j + 1)) i) (toK point)).getD i 0 * (tr R (j + 1) (neg (toK f))).getD i 0 / 12289) = tr R (j + 1) x1 := by
      rw [length_vec]
      unfold tr
      rw [ex1]
      apply vec_congr; intro i hi
      rw [getD_vec_lt hi, getD_vec_lt hi]
    rw [t0, t1]
    unfold ffSampling
    rw [length_tr, ← hnd, run]
    dsimp only
    simp only [tr]
    rw [mulFft_vec, mulFft_vec, mulFft_vec, mulFft_vec]
    dsimp only
    rw [add_vec, add_vec]
    dsimp only
    have i0 : ifft R I (vec (2 ^ (j + 1)) fun i => evalAt (R (2 ^ (j + 1)) i) (toK z0) * evalAt (R (2 ^ (j + 1)) i) (toK g) + evalAt (R (2 ^ (j + 1)) i) (toK z1) * evalAt (R (2 ^ (j + 1)) i) (toK G)) = .ok (toK V0) := by
      rw [← ifft_fft hR h1 h2 (f := toK V0) (by rw [length_toK, lV0]) (real_toK _)]
      congr 1
      apply vec_congr; intro i hi
      rw [eV0 i hi]
    have i1 : ifft R I (vec (2 ^ (j + 1)) fun i => evalAt (R (2 ^ (j + 1)) i) (toK z0) * evalAt (R (2 ^ (j + 1)) i) (neg (toK f)) + evalAt (R (2 ^ (j + 1)) i) (toK z1) * evalAt (R (2 ^ (j + 1)) i) (neg (toK F))) = .ok (toK V1) := by
      rw [← ifft_fft hR h1 h2 (f := toK V1) (by rw [length_toK, lV1]) (real_toK _)]
      congr 1
      apply vec_congr; intro i hi
      rw [eV1 i hi, evalAt_neg, evalAt_neg]; ring
    rw [i0, i1]
    dsimp only
    have hmap : ∀ V : List Int, (toK V : List ℂ).map rnd = V := by
      intro V
      unfold toK
      rw [List.map_map]
      conv_rhs => rw [← List.map_id V]
      apply List.map_congr_left; intro x _
      simp only [Function.comp, hrnd, id]
    rw [length_toK, lV0, if_pos hp, hmap, hmap, hV0, hV1]
    rfl
  · rw [ll, pow_succ, hnd]; ring
  · -- Parseval on both halves
    have hs0 : (Falcon.samplePreimage n ⟨f, g, F, G, hpk⟩ point (z0, z1)).1 = Falcon.psub point V0 := by rw [hV0]; rfl
    have hs1 : (Falcon.samplePreimage n ⟨f, g, F, G, hpk⟩ point (z0, z1)).2 = Falcon.pneg V1 := by rw [hV1]; rfl
    have l0 : (Falcon.psub point V0).length = n := by simp [Falcon.psub, hp, lV0]
    have l1 : (Falcon.pneg V1).length = n := by simp [Falcon.pneg, lV1]
    rw [hs0, hs1]
    have P0 := parseval hR h1 h2 (toK (Falcon.psub point V0)) (toK (Falcon.psub point V0)) (by rw [length_toK, l0]) (by rw [length_toK, l0]) (real_toK _) (real_toK _)
    have P1 := parseval hR h1 h2 (toK (Falcon.pneg V1)) (toK (Falcon.pneg V1)) (by rw [length_toK, l1]) (by rw [length_toK, l1]) (real_toK _) (real_toK _)
    rw [← sumSq_range hR l0] at P0
    rw [← sumSq_range hR l1] at P1
    have hq : ∑ i ∈ range n, quad Gm (dif R (j + 1) x0 z0) (dif R (j + 1) x1 z1) i =
        ∑ i ∈ range n, evalAt (R n i) (toK (Falcon.psub point V0)) * star (evalAt (R n i) (toK (Falcon.psub point V0))) +
        ∑ i ∈ range n, evalAt (R n i) (toK (Falcon.pneg V1)) * star (evalAt (R n i) (toK (Falcon.pneg V1))) := by
      rw [← sum_add_distrib]
      apply sum_congr rfl
      intro i hi
      have hi : i < n := by simpa using hi
      obtain ⟨va, vb, vc, vd⟩ := val i hi
      have y0 := vec_inj ex0 i hi
      have y1 := vec_inj ex1 i hi
      rw [evalAt_neg] at y0 y1
      have det := ntru_eval hN hn (hR.pow h1 h2 i hi)
      rw [toK_psub hR hp lV0, toK_pneg hR, eV0 i hi, eV1 i hi]
      unfold quad
      rw [va, vb, vc, vd, getD_dif hR hi, getD_dif hR hi]
      rw [y0, y1]
      generalize evalAt (R n i) (toK f) = ef at *
      generalize evalAt (R n i) (toK g) = eg at *
      generalize evalAt (R n i) (toK F) = eF at *
      generalize evalAt (R n i) (toK G) = eG at *
      generalize evalAt (R n i) (toK point) = ep at *
      generalize evalAt (R n i) (toK z0) = a at *
      generalize evalAt (R n i) (toK z1) = b at *
      have e0 : ep - (a * eg + b * eG) = (ep * -eF / 12289 - a) * eg + (-ep * -ef / 12289 - b) * eG := by
        linear_combination (-ep / 12289) * det
      have e1 : -(-(a * ef + b * eF)) = -((ep * -eF / 12289 - a) * ef + (-ep * -ef / 12289 - b) * eF) := by ring
      rw [e0, e1]
      simp only [star_add, star_mul', star_neg]
      ring
    rw [sum, P0, P1] at hq
    have hn0 : ((n : ℕ) : ℂ) ≠ 0 := by exact_mod_cast hn.ne'
    apply mul_left_cancel₀ hn0
    have hcast : ((n : ℕ) : ℂ) = 2 ^ (j + 1) := by rw [hnd]; push_cast; rfl
    rw [← hcast] at hq
    rw [hq, hnd]
    push_cast
    ring

end Verif.FFT
