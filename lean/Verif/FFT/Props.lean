import Verif.FFT.Domain
import Verif.FFT.Trace
import Verif.FFT.Table
import Verif.FFT.Link
import Verif.FFT.Agree
import Verif.Falcon.Props

/-! # C56, C57, C58, C70, C71, C72: the Fourier transform, the LDL tree and fast Fourier sampling, in exact arithmetic

Every theorem holds for every table of roots with the laws `RootLaw`; `C56_tables_exist` shows there is one, `C56_tables_close` that the decimals of `fft_constants.py` are its entries up to 5·10⁻¹⁵. -/

namespace Verif.FFT

open Finset

set_option linter.unusedSectionVars false

section General
variable {K : Type} [Field K] [StarRing K] [DecidableEq K] {R : Nat → Nat → K} {I : K}

/-! ## C56 -/

/-- C56: `fft(f)` lists the values of `f` at the table's entries, for `n = 2, 4, …, 1024`. -/
theorem C56_fft_evaluates (hR : RootLaw R I) {k : Nat} (h1 : 1 ≤ k) (h2 : k ≤ 10) {f : List K} (hf : f.length = 2 ^ k) :
    fft R I f = .ok ((List.range (2 ^ k)).map fun i => ∑ j ∈ range (2 ^ k), f.getD j 0 * R (2 ^ k) i ^ j) := by
  rw [fft_eq hR h1 h2 hf]
  unfold vec evalAt
  rw [hf]

/-- C56: the table's entries are exactly the `n` distinct solutions of `x^n = -1`. -/
theorem C56_roots (hR : RootLaw R I) {k : Nat} (h1 : 1 ≤ k) (h2 : k ≤ 10) :
    (∀ z : K, z ^ 2 ^ k = -1 ↔ ∃ i < 2 ^ k, z = R (2 ^ k) i) ∧ ∀ i j, i < 2 ^ k → j < 2 ^ k → R (2 ^ k) i = R (2 ^ k) j → i = j := by
  refine ⟨fun z => ⟨hR.complete h1 h2 z, ?_⟩, hR.inj h1 h2⟩
  rintro ⟨i, hi, rfl⟩
  exact hR.pow h1 h2 i hi

/-- C56: `ifft(fft(f)) = f` for every real polynomial. -/
theorem C56_ifft_fft (hR : RootLaw R I) {k : Nat} (h1 : 1 ≤ k) (h2 : k ≤ 10) {f : List K} (hf : f.length = 2 ^ k) (hr : Real' f) :
    ∃ F, fft R I f = .ok F ∧ ifft R I F = .ok f :=
  ⟨_, fft_eq hR h1 h2 hf, ifft_fft hR h1 h2 hf hr⟩

/-- C56: `fft(ifft(F)) = F` for every vector with conjugate values at conjugate roots, and these vectors are exactly the transforms of real polynomials. -/
theorem C56_fft_ifft (hR : RootLaw R I) {k : Nat} (h1 : 1 ≤ k) (h2 : k ≤ 10) {F : List K} (hF : F.length = 2 ^ k) :
    (SelfConj R F ↔ ∃ f, f.length = 2 ^ k ∧ Real' f ∧ fft R I f = .ok F) ∧ (SelfConj R F → ∃ f, ifft R I F = .ok f ∧ fft R I f = .ok F) := by
  refine ⟨⟨fun h => ?_, ?_⟩, fun h => ?_⟩
  · obtain ⟨f, _, l, r, e⟩ := ifft_selfConj hR h1 h2 hF h
    exact ⟨f, l, r, e⟩
  · rintro ⟨f, l, r, e⟩
    rw [fft_eq hR h1 h2 l] at e
    injection e with e
    rw [← e]
    exact selfConj_eval hR r
  · obtain ⟨f, e1, l, r, e⟩ := ifft_selfConj hR h1 h2 hF h
    exact ⟨f, e1, e⟩

/-- C56: `split` and `merge` are inverse to each other, for every even length. -/
theorem C56_split_merge : (∀ (f : List K) (m : Nat), f.length = 2 * m → merge (split f).1 (split f).2 = .ok f) ∧
    ∀ a b : List K, a.length = b.length → ∃ f, merge a b = .ok f ∧ split f = (a, b) := by
  refine ⟨fun f m h => merge_split h, fun a b h => ?_⟩
  refine ⟨_, merge_eq h, split_merge h (merge_eq h)⟩

/-- C56: so are `split_fft` and `merge_fft`. -/
theorem C56_splitFft_mergeFft (hR : RootLaw R I) {k : Nat} (h1 : 1 ≤ k) (h2 : k ≤ 10) :
    (∀ f : List K, f.length = 2 ^ k → ∃ a b, splitFft R f = .ok (a, b) ∧ a.length = 2 ^ (k - 1) ∧ b.length = 2 ^ (k - 1) ∧ mergeFft R a b = .ok f) ∧
    ∀ a b : List K, a.length = 2 ^ (k - 1) → b.length = 2 ^ (k - 1) → ∃ f, mergeFft R a b = .ok f ∧ splitFft R f = .ok (a, b) := by
  refine ⟨fun f h => ?_, fun a b ha hb => ?_⟩
  · refine ⟨_, _, splitFft_eq R h1 h2 h, length_vec _ _, length_vec _ _, ?_⟩
    exact mergeFft_splitFft hR h1 h2 h (splitFft_eq R h1 h2 h)
  · exact ⟨_, mergeFft_eq R h1 h2 ha hb, splitFft_mergeFft hR h1 h2 ha hb (mergeFft_eq R h1 h2 ha hb)⟩

/-- C56: `split_fft` of a transform is the pair of transforms of the even and of the odd coefficients. -/
theorem C56_splitFft_fft (hR : RootLaw R I) {k : Nat} (h1 : 1 ≤ k) (h2 : k < 10) {f : List K} (hf : f.length = 2 ^ (k + 1)) :
    ∃ F A B, fft R I f = .ok F ∧ fft R I ((List.range (2 ^ k)).map fun i => f.getD (2 * i) 0) = .ok A ∧ fft R I ((List.range (2 ^ k)).map fun i => f.getD (2 * i + 1) 0) = .ok B ∧
      splitFft R F = .ok (A, B) := by
  have e := pow_succ 2 k
  have s := split_eq (f := f) (m := 2 ^ k) (by omega)
  refine ⟨tr R (k + 1) f, tr R k (split f).1, tr R k (split f).2, fft_eq hR (by omega) (by omega) hf, ?_, ?_, split_tr hR h2 hf⟩
  · rw [s]; exact fft_eq hR h1 (by omega) (by simp)
  · rw [s]; exact fft_eq hR h1 (by omega) (by simp)

/-- C56: `mul(f, g)` is the product modulo `x^n + 1`; `mul_fft` of the transforms is the transform of the product. -/
theorem C56_mul (hR : RootLaw R I) {k : Nat} (h1 : 1 ≤ k) (h2 : k ≤ 10) {f g : List K} (hf : f.length = 2 ^ k) (hg : g.length = 2 ^ k) :
    (Real' f → Real' g → mul R I f g = .ok (Ring.negMul (2 ^ k) f g)) ∧
    ∃ F G P, fft R I f = .ok F ∧ fft R I g = .ok G ∧ mulFft F G = .ok P ∧ fft R I (Ring.negMul (2 ^ k) f g) = .ok P := by
  refine ⟨mul_eq hR h1 h2 hf hg, _, _, _, fft_eq hR h1 h2 hf, fft_eq hR h1 h2 hg, mulFft_vec _ _ _, ?_⟩
  rw [fft_eq hR h1 h2 (by simp)]
  congr 1
  apply vec_congr; intro i hi
  rw [evalAt_negMul (hR.pow h1 h2 i hi) hf hg]

/-- C56: `adj(f)` has the coefficients `f_0, -f_{n-1}, …, -f_1`. -/
theorem C56_adj (hR : RootLaw R I) {k : Nat} (h1 : 1 ≤ k) (h2 : k ≤ 10) {f : List K} (hf : f.length = 2 ^ k) (rf : Real' f) :
    adj R I f = .ok (f.getD 0 0 :: (List.range (2 ^ k - 1)).map fun i => -f.getD (2 ^ k - 1 - i) 0) := by
  rw [adj_eq hR h1 h2 hf rf]
  congr 1
  have hp : 0 < 2 ^ k := by positivity
  apply list_ext (n := 2 ^ k) (by rw [length_adjSpec, hf]) (by simp; omega)
  intro i hi
  unfold adjSpec
  rw [hf, getD_vec_lt hi]
  rcases i with _ | i
  · simp
  · rw [if_neg (by omega), List.getD_cons_succ]
    have := getD_vec_lt (n := 2 ^ k - 1) (φ := fun i => -f.getD (2 ^ k - 1 - i) 0) (i := i) (by omega)
    unfold vec at this
    rw [this]
    congr 2
    omega

/-- C56: `div(f, g)` returns the polynomial `h` with `h g = f`, the only one; it raises exactly when `g` vanishes at a root of `x^n + 1`. -/
theorem C56_div (hR : RootLaw R I) {k : Nat} (h1 : 1 ≤ k) (h2 : k ≤ 10) {f g : List K} (hf : f.length = 2 ^ k) (hg : g.length = 2 ^ k) (rf : Real' f) (rg : Real' g) :
    ((∀ i < 2 ^ k, evalAt (R (2 ^ k) i) g ≠ 0) → ∃ h, div R I f g = .ok h ∧ h.length = 2 ^ k ∧ Real' h ∧ Ring.negMul (2 ^ k) h g = f ∧
      ∀ h' : List K, h'.length = 2 ^ k → Real' h' → Ring.negMul (2 ^ k) h' g = f → h' = h) ∧
    ((∃ i < 2 ^ k, evalAt (R (2 ^ k) i) g = 0) → div R I f g = .error .runtimeError) := by
  refine ⟨fun h0 => ?_, ?_⟩
  · obtain ⟨h, e, l, r, v, p⟩ := div_eq hR h1 h2 hf hg rf rg h0
    refine ⟨h, e, l, r, p, ?_⟩
    intro h' l' r' p'
    apply fft_inj hR h1 h2 l' l r' r
    intro i hi
    have e1 := evalAt_negMul (hR.pow h1 h2 i hi) l' hg
    rw [p'] at e1
    rw [v i hi, e1, mul_div_cancel_right₀ _ (h0 i hi)]
  · rintro ⟨i, hi, h0⟩
    exact div_zero hR h1 h2 hf hg hi h0

/-- C56: Parseval. -/
theorem C56_parseval (hR : RootLaw R I) {k : Nat} (h1 : 1 ≤ k) (h2 : k ≤ 10) {f g : List K} (hf : f.length = 2 ^ k) (hg : g.length = 2 ^ k) (rf : Real' f) (rg : Real' g) :
    ∃ F G, fft R I f = .ok F ∧ fft R I g = .ok G ∧
      ∑ i ∈ range (2 ^ k), F.getD i 0 * star (G.getD i 0) = (2 ^ k : ℕ) * ∑ i ∈ range (2 ^ k), f.getD i 0 * g.getD i 0 := by
  refine ⟨_, _, fft_eq hR h1 h2 hf, fft_eq hR h1 h2 hg, ?_⟩
  rw [← parseval hR h1 h2 f g hf hg rf rg]
  apply sum_congr rfl; intro i hi
  rw [getD_vec_lt (by simpa using hi), getD_vec_lt (by simpa using hi)]

/-- C56: the lengths `fft` accepts: those between `2^k` and `3/2 · 2^k` (exclusive) for `k = 1, …, 10`.  Beyond `2^k` the input is not refused but silently cut to its first `2^k` coefficients. -/
theorem C56_fft_lengths (hR : RootLaw R I) (f : List K) :
    ((∃ F, fft R I f = .ok F) ↔ ∃ k, 1 ≤ k ∧ k ≤ 10 ∧ 2 ^ k ≤ f.length ∧ 2 * f.length < 3 * 2 ^ k) ∧
    ∀ k, 1 ≤ k → k ≤ 10 → 2 ^ k ≤ f.length → 2 * f.length < 3 * 2 ^ k → fft R I f = fft R I (f.take (2 ^ k)) := by
  have main : ∀ k, 1 ≤ k → k ≤ 10 → 2 ^ k ≤ f.length → 2 * f.length < 3 * 2 ^ k → fft R I f = .ok (vec (2 ^ k) fun i => evalAt (R (2 ^ k) i) (f.take (2 ^ k))) :=
    fun k h1 h2 l1 l2 => fftLoop_take hR h1 h2 _ f l1 l2 (by have := Nat.lt_two_pow_self (n := k); omega)
  refine ⟨⟨?_, ?_⟩, ?_⟩
  · rintro ⟨F, h⟩
    obtain ⟨k, h1, h2, l1, l2, _⟩ := fftLoop_ok R I _ _ _ h
    exact ⟨k, h1, h2, l1, l2⟩
  · rintro ⟨k, h1, h2, l1, l2⟩
    exact ⟨_, main k h1 h2 l1 l2⟩
  · intro k h1 h2 l1 l2
    rw [main k h1 h2 l1 l2, fft_eq hR h1 h2 (by simp; omega)]

/-- C56 (refutation of "lists whose length is not a power of two are refused"): five coefficients are accepted, the fifth is ignored. -/
theorem C56_truncation_false (hR : RootLaw R I) : ¬ ∀ f : List K, (∃ F, fft R I f = .ok F) → ∃ k, f.length = 2 ^ k := by
  intro h
  obtain ⟨k, hk⟩ := h [1, 0, 0, 0, 1] (((C56_fft_lengths hR _).1).2 ⟨2, by simp⟩)
  have hk : 5 = 2 ^ k := hk
  rcases k with _ | _ | _ | k
  · omega
  · omega
  · omega
  · have : 8 ≤ 2 ^ (k + 3) := by rw [pow_add]; have := Nat.one_le_two_pow (n := k); omega
    omega

/-! ## C57 -/

/-- C57: `ldl_fft(G)` for self-adjoint `G` with no zero in the corner: at every index `L` is unit lower triangular, `D` diagonal and `L D L* = G`. -/
theorem C57_ldl_fft {n : Nat} {G : Mat K} (hG : G.Len n) (ha : ∀ i < n, G.a.getD i 0 ≠ 0) (hsa : ∀ i < n, star (G.a.getD i 0) = G.a.getD i 0)
    (hbc : ∀ i < n, G.b.getD i 0 = star (G.c.getD i 0)) :
    ∃ L D : Mat K, ldlFft G = .ok ⟨L, D⟩ ∧ L.Len n ∧ D.Len n ∧ ∀ i < n,
      (∃ l d0 d1, L.val i = !![1, 0; l, 1] ∧ D.val i = !![d0, 0; 0, d1]) ∧ L.val i * D.val i * (L.val i).conjTranspose = G.val i := by
  refine ⟨_, _, ldlFft_eq hG ha, ⟨by simp, by simp, by simp, by simp⟩, ⟨hG.1, by simp, by simp, by simp⟩, ?_⟩
  intro i hi
  unfold Mat.val
  dsimp only
  simp only [getD_vec_lt hi]
  exact ⟨⟨_, _, _, rfl, rfl⟩, ldl_matrix _ _ _ _ (ha i hi) (hsa i hi) (hbc i hi)⟩

/-- C57: it raises exactly when the corner has a zero. -/
theorem C57_ldl_fft_error {n : Nat} {G : Mat K} (hG : G.Len n) : ldlFft G = .error .runtimeError ↔ ∃ i < n, G.a.getD i 0 = 0 := by
  constructor
  · intro h
    by_contra hc
    push Not at hc
    rw [ldlFft_eq hG hc] at h
    cases h
  · rintro ⟨i, hi, h0⟩
    exact ldlFft_zero hG hi h0

/-- C57: the coefficient version: `L D L* = G` as matrices of polynomials modulo `x^n + 1`. -/
theorem C57_ldl (hR : RootLaw R I) {k : Nat} (h1 : 1 ≤ k) (h2 : k ≤ 10) {G : Mat K} (hG : G.Len (2 ^ k)) (rG : G.Real) (ha : adjSpec G.a = G.a) (hb : G.b = adjSpec G.c)
    (h0 : ∀ i < 2 ^ k, evalAt (R (2 ^ k) i) G.a ≠ 0) :
    ∃ L D : Mat K, ldl R I G = .ok ⟨L, D⟩ ∧
      (∃ l d0 d1, L.mat = !![poly1 (2 ^ k), poly0 (2 ^ k); l, poly1 (2 ^ k)] ∧ D.mat = !![d0, poly0 (2 ^ k); poly0 (2 ^ k), d1]) ∧
      pmatMul (2 ^ k) (pmatMul (2 ^ k) L.mat D.mat) (pmatAdj L.mat) = G.mat := by
  obtain ⟨l, d, e, p⟩ := ldl_product hR h1 h2 hG rG ha hb h0
  exact ⟨_, _, e, ⟨_, _, _, rfl, rfl⟩, p⟩

/-- C57: it raises when the corner vanishes at a root. -/
theorem C57_ldl_error (hR : RootLaw R I) {k : Nat} (h1 : 1 ≤ k) (h2 : k ≤ 10) {G : Mat K} (hG : G.Len (2 ^ k)) (h0 : ∃ i < 2 ^ k, evalAt (R (2 ^ k) i) G.a = 0) :
    ldl R I G = .error .runtimeError := by
  obtain ⟨i, hi, h0⟩ := h0
  exact ldl_zero hR h1 h2 hG hi h0

/-- C57: `gram(B) = B B*`. -/
theorem C57_gram (hR : RootLaw R I) {k : Nat} (h1 : 1 ≤ k) (h2 : k ≤ 10) {B : Mat K} (hB : B.Len (2 ^ k)) (rB : B.Real) :
    ∃ G, gram R I B = .ok G ∧ G.Len (2 ^ k) ∧ G.Real ∧ G.mat = pmatMul (2 ^ k) B.mat (pmatAdj B.mat) := gram_eq hR h1 h2 hB rB

/-! ## C58 -/

/-- C58: `ffsampling_fft` on a tree of the right shape never fails and returns the transforms of two integer polynomials of the input's length, whatever the sampler at the leaves does. -/
theorem C58_ffsampling (hR : RootLaw R I) {St : Type} (S : LeafSampler St K) {k : Nat} (h1 : 1 ≤ k) (h2 : k ≤ 10) {t0 t1 : List K} (l0 : t0.length = 2 ^ k) (l1 : t1.length = 2 ^ k) {T : Tree K}
    (hT : Shaped k T) (st : St) :
    ∃ (z0 z1 : List Int) (Z0 Z1 : List K) (st' : St), z0.length = 2 ^ k ∧ z1.length = 2 ^ k ∧ ffSampling R S t0 t1 T st = .ok ((Z0, Z1), st') ∧
      fft R I (z0.map fun x : Int => (x : K)) = .ok Z0 ∧ fft R I (z1.map fun x : Int => (x : K)) = .ok Z1 := by
  obtain ⟨z0, z1, st', m0, m1, e⟩ := ffSamplingLoop_int hR S true k h2 (t0.length + 1) t0 t1 T st l0 l1 hT (by have := Nat.lt_two_pow_self (n := k); omega)
  exact ⟨z0, z1, _, _, st', m0, m1, e, fft_eq hR h1 h2 ((length_toK z0).trans m0), fft_eq hR h1 h2 ((length_toK z1).trans m1)⟩

/-- C58: the same for the nearest-plane function `ffnp_fft`. -/
theorem C58_ffnp_fft (hR : RootLaw R I) (rnd : K → Int) {k : Nat} (h1 : 1 ≤ k) (h2 : k ≤ 10) {t0 t1 : List K} (l0 : t0.length = 2 ^ k) (l1 : t1.length = 2 ^ k) {T : Tree K} (hT : Shaped k T) :
    ∃ (z0 z1 : List Int) (Z0 Z1 : List K), z0.length = 2 ^ k ∧ z1.length = 2 ^ k ∧ ffnpFft R rnd t0 t1 T = .ok (Z0, Z1) ∧
      fft R I (z0.map fun x : Int => (x : K)) = .ok Z0 ∧ fft R I (z1.map fun x : Int => (x : K)) = .ok Z1 := by
  obtain ⟨z0, z1, st', m0, m1, e⟩ := ffSamplingLoop_int hR (fun (st : Unit) c _ => (rnd c, st)) false k h2 (t0.length + 1) t0 t1 T () l0 l1 hT (by have := Nat.lt_two_pow_self (n := k); omega)
  refine ⟨z0, z1, tr R k (toK z0), tr R k (toK z1), m0, m1, ?_, fft_eq hR h1 h2 ((length_toK z0).trans m0), fft_eq hR h1 h2 ((length_toK z1).trans m1)⟩
  unfold ffnpFft
  rw [e]

/-- C58: the coefficient version `ffnp` returns two integer polynomials of the input's length. -/
theorem C58_ffnp (hR : RootLaw R I) (rnd : K → Int) {k : Nat} (h2 : k ≤ 10) {t0 t1 : List K} (l0 : t0.length = 2 ^ k) (l1 : t1.length = 2 ^ k) (r0 : Real' t0) (r1 : Real' t1) {T : Tree K}
    (hT : RealShaped k T) :
    ∃ z0 z1 : List Int, z0.length = 2 ^ k ∧ z1.length = 2 ^ k ∧ ffnp R I rnd t0 t1 T = .ok (z0.map fun x : Int => (x : K), z1.map fun x : Int => (x : K)) := by
  obtain ⟨z0, z1, m0, m1, e, _⟩ := ffnp_agree hR rnd k h2 (t0.length + 1) t0 t1 T l0 l1 r0 r1 hT (by have := Nat.lt_two_pow_self (n := k); omega)
  exact ⟨z0, z1, m0, m1, e⟩

/-! ## C72 -/

/-- C72: the two ways to build the tree agree: `ffldl_fft` of the transforms of a self-adjoint matrix fails exactly when `ffldl` does, and otherwise returns the tree of the transforms. -/
theorem C72_ffldl (hR : RootLaw R I) {k : Nat} (h1 : 1 ≤ k) (h2 : k ≤ 10) {G G' : Mat K} (hG : SelfAdj k G)
    (ea : fft R I G.a = .ok G'.a) (eb : fft R I G.b = .ok G'.b) (ec : fft R I G.c = .ok G'.c) (ed : fft R I G.d = .ok G'.d) :
    (∃ e, ffldl R I G = .error e ∧ ffldlFft R G' = .error e) ∨ ∃ T, ffldl R I G = .ok T ∧ ffldlFft R G' = .ok (fftTree R k T) ∧ RealShaped k T := by
  obtain ⟨j, rfl⟩ : ∃ j, k = j + 1 := ⟨k - 1, by omega⟩
  rw [fft_eq hR h1 h2 hG.len.1] at ea
  rw [fft_eq hR h1 h2 hG.len.2.1] at eb
  rw [fft_eq hR h1 h2 hG.len.2.2.1] at ec
  rw [fft_eq hR h1 h2 hG.len.2.2.2] at ed
  have e : G' = trMat R (j + 1) G := by
    cases G'
    injection ea with ea; injection eb with eb; injection ec with ec; injection ed with ed
    subst ea eb ec ed
    rfl
  unfold ffldl ffldlFft
  rw [e]
  have hl : (trMat R (j + 1) G).a.length = G.a.length := by rw [hG.len.1]; exact length_tr _ _ _
  rw [hl]
  exact ffldl_agree hR j h2 (G.a.length + 1) G hG (by rw [hG.len.1]; have := Nat.lt_two_pow_self (n := j + 1); omega)

/-- C72: nearest plane on coefficients and on transforms return the same integers. -/
theorem C72_ffnp (hR : RootLaw R I) (rnd : K → Int) {k : Nat} (h1 : 1 ≤ k) (h2 : k ≤ 10) {x0 x1 X0 X1 : List K} (l0 : x0.length = 2 ^ k) (l1 : x1.length = 2 ^ k) (r0 : Real' x0) (r1 : Real' x1)
    {T : Tree K} (hT : RealShaped k T) (e0 : fft R I x0 = .ok X0) (e1 : fft R I x1 = .ok X1) :
    ∃ z0 z1 Z0 Z1, ffnp R I rnd x0 x1 T = .ok (z0, z1) ∧ ffnpFft R rnd X0 X1 (fftTree R k T) = .ok (Z0, Z1) ∧ fft R I z0 = .ok Z0 ∧ fft R I z1 = .ok Z1 := by
  obtain ⟨z0, z1, m0, m1, e, e'⟩ := ffnp_agree hR rnd k h2 (x0.length + 1) x0 x1 T l0 l1 r0 r1 hT (by have := Nat.lt_two_pow_self (n := k); omega)
  rw [fft_eq hR h1 h2 l0] at e0
  rw [fft_eq hR h1 h2 l1] at e1
  injection e0 with e0; injection e1 with e1
  subst e0 e1
  refine ⟨toK z0, toK z1, tr R k (toK z0), tr R k (toK z1), e, ?_, fft_eq hR h1 h2 ((length_toK z0).trans m0), fft_eq hR h1 h2 ((length_toK z1).trans m1)⟩
  unfold ffnpFft
  rw [l0] at e'
  rw [length_vec]
  unfold tr at e' ⊢
  rw [e']

end General

/-! ## The tables -/

/-- C56: tables with these laws exist over ℂ. -/
theorem C56_tables_exist : ∃ R : Nat → Nat → ℂ, RootLaw R Complex.I := ⟨exactRoots, exactRoots_law⟩

/-- C56: the constants of `fft_constants.py` (read as exact decimals) are within 5·10⁻¹⁵ of tables with these laws. -/
theorem C56_tables_close : ∃ R : Nat → Nat → ℂ, RootLaw R Complex.I ∧ ∀ k, 1 ≤ k → k ≤ 10 → ∀ i < 2 ^ k, ‖Table.tableC k i - R (2 ^ k) i‖ ≤ 5e-15 :=
  ⟨exactRoots, exactRoots_law, fun _ h1 h2 => Table.table_close h1 h2⟩

/-! ## C70, C71: keys and signatures over ℂ -/

section Keys
variable {R : Nat → Nat → ℂ} {I : ℂ}

/-- C71: building a secret key from polynomials with `f G - g F = q` never fails: no division by zero, no square root of a number that is not positive; the tree has the shape signing needs
and its leaves are `σ` divided by the square root of a positive number. -/
theorem C71_key_setup (hR : RootLaw R I) {k : Nat} (h1 : 1 ≤ k) (h2 : k ≤ 10) {f g F G : List Int} (h : Ntru (2 ^ k) f g F G) (sigma : ℂ) :
    ∃ B T, mkTree R I sqrtC sigma (toK f) (toK g) (toK F) (toK G) = .ok (B, normalizeTree sqrtC sigma T) ∧ LeafPos T ∧ Shaped k (normalizeTree sqrtC sigma T) ∧
      fft R I (toK g) = .ok B.a ∧ fft R I (neg (toK f)) = .ok B.b ∧ fft R I (toK G) = .ok B.c ∧ fft R I (neg (toK F)) = .ok B.d := by
  obtain ⟨Gm, T, e, _, _, pT, sT, _⟩ := mkTree_ok hR h1 h2 h sigma
  obtain ⟨hf, hg, hF, hG, _⟩ := h
  refine ⟨_, T, e, pT, shaped_normalize _ _ _ _ sT, ?_, ?_, ?_, ?_⟩
  · exact fft_eq hR h1 h2 ((length_toK g).trans hg)
  · exact fft_eq hR h1 h2 (by rw [length_neg, length_toK, hf])
  · exact fft_eq hR h1 h2 ((length_toK G).trans hG)
  · exact fft_eq hR h1 h2 (by rw [length_neg, length_toK, hF])

/-- C70: for such a key `sample_preimage` returns, for every target and every behaviour of the leaf sampler, an integer pair; the sampler is called exactly `2 n` times, and the squared length of the
pair is `σ²` times the sum of the squares of (centre − sample) / deviation over these calls. -/
theorem C70_norm (hR : RootLaw R I) {St : Type} {k : Nat} (h1 : 1 ≤ k) (h2 : k ≤ 10) {f g F G : List Int} (h : Ntru (2 ^ k) f g F G) {sigma : ℂ} (hs : sigma ≠ 0) (S : LeafSampler St ℂ)
    {rnd : ℂ → Int} (hrnd : ∀ m : Int, rnd (m : ℂ) = m) {B : Mat ℂ} {T : Tree ℂ} (hT : mkTree R I sqrtC sigma (toK f) (toK g) (toK F) (toK G) = .ok (B, T))
    {point : List Int} (hp : point.length = 2 ^ k) (st : St) :
    ∃ (s0 s1 : List Int) (st' : St) (log : List (ℂ × ℂ × Int)), samplePreimageFft R I S rnd B T point st = .ok ((s0, s1), st') ∧
      Run S st log st' ∧ log.length = 2 * 2 ^ k ∧
      ((((s0.map fun x => x ^ 2).sum + (s1.map fun x => x ^ 2).sum : Int)) : ℂ) = sigma ^ 2 * (log.map fun e => ((e.1 - (e.2.2 : ℂ)) / e.2.1) ^ 2).sum := by
  obtain ⟨z0, z1, st', log, _, _, e, l, n⟩ := preimage_ok hR h1 h2 h hs S hrnd hT hp st []
  obtain ⟨e', r⟩ := logged_preimage R I S rnd B T point st e
  exact ⟨_, _, st', log, e', r, l, n⟩

theorem ntru_of_isKey {n : Nat} {sk : Falcon.SecretKey} (h : Falcon.IsKey n sk) : Ntru n sk.f sk.g sk.F sk.G := by
  refine ⟨h.lf, h.lg, h.lF, h.lG, fun i hi => ?_⟩
  have e := congrArg (fun l : List Int => l.getD i 0) h.ntru
  have l1 := Ring.length_negMul n sk.f sk.G
  have l2 := Ring.length_negMul n sk.g sk.F
  simp only [List.getD_eq_getElem?_getD, List.getElem?_zipWith] at e
  rw [List.getElem?_eq_getElem (by omega), List.getElem?_eq_getElem (by omega)] at e
  simp only [List.getD_eq_getElem?_getD]
  rw [List.getElem?_eq_getElem (by omega), List.getElem?_eq_getElem (by omega)]
  simp only [Option.getD_some] at e ⊢
  rw [e]
  rcases i with _ | i
  · rfl
  · rw [if_neg (by omega), List.getElem?_cons_succ, List.getElem?_replicate]
    split <;> rfl

/-- C70: and the pair satisfies the verification equation `s0 + s1 h = point` modulo `q`: in exact arithmetic the floating-point signing is the integer signing of C01. -/
theorem C70_preimage (hR : RootLaw R I) {St : Type} {k : Nat} (h1 : 1 ≤ k) (h2 : k ≤ 10) {sk : Falcon.SecretKey} (hk : Falcon.IsKey (2 ^ k) sk)
    {sigma : ℂ} (hs : sigma ≠ 0) (S : LeafSampler St ℂ) {rnd : ℂ → Int} (hrnd : ∀ m : Int, rnd (m : ℂ) = m) {B : Mat ℂ} {T : Tree ℂ}
    (hT : mkTree R I sqrtC sigma (toK sk.f) (toK sk.g) (toK sk.F) (toK sk.G) = .ok (B, T)) {point : List Int} (hp : point.length = 2 ^ k) (st : St) :
    ∃ (s0 s1 : List Int) (st' : St), samplePreimageFft R I S rnd B T point st = .ok ((s0, s1), st') ∧ Falcon.IsPreimage (2 ^ k) sk.h point s0 s1 := by
  obtain ⟨z0, z1, st', log, l0, l1, e, _, _⟩ := preimage_ok hR h1 h2 (ntru_of_isKey hk) hs S hrnd hT hp st sk.h
  obtain ⟨e', _⟩ := logged_preimage R I S rnd B T point st e
  exact ⟨_, _, st', e', Falcon.samplePreimage_isPreimage (2 ^ k) (by positivity) sk hk point hp (z0, z1) l0 l1⟩

end Keys

/-! ## Non-vacuity: concrete instances over ℂ -/

example : ∃ F, fft exactRoots Complex.I [1, 2, -3, 4] = .ok F ∧ ifft exactRoots Complex.I F = .ok [1, 2, -3, 4] :=
  C56_ifft_fft exactRoots_law (k := 2) (by omega) (by omega) rfl (by simp [Real', Complex.conj_ofNat])

example : fft exactRoots Complex.I [5, 7] = .ok [5 + 7 * Complex.I, 5 - 7 * Complex.I] := by
  simp [fft, fftLoop, mul_comm]

example : mul exactRoots Complex.I [1, 2] [3, 4] = .ok (Ring.negMul 2 [1, 2] [3, 4]) ∧ Ring.negMul 2 [(1 : Int), 2] [3, 4] = [-5, 10] :=
  ⟨(C56_mul exactRoots_law (k := 1) (by omega) (by omega) rfl rfl).1 (by simp [Real', Complex.conj_ofNat]) (by simp [Real', Complex.conj_ofNat]), by decide +kernel⟩

example : adj exactRoots Complex.I [1, 2, 3, 4] = .ok [1, -4, -3, -2] := by
  have := C56_adj exactRoots_law (k := 2) (by omega) (by omega) (f := [1, 2, 3, 4]) rfl (by simp [Real', Complex.conj_ofNat])
  simpa [List.range_succ] using this

theorem eval2_ne : ∀ i < 2 ^ 1, evalAt (exactRoots (2 ^ 1) i) [2, 1] ≠ 0 := by
  intro i hi
  have hi : i < 2 := hi
  rw [show 2 ^ 1 = 2 from rfl, exactRoots_law.one i hi]
  intro h
  have := congrArg Complex.re h
  split at this <;> simp [evalAt, sum_range_succ] at this

example : ∃ h, div exactRoots Complex.I [1, 0] [2, 1] = .ok h ∧ h.length = 2 ^ 1 ∧ Real' h ∧ Ring.negMul (2 ^ 1) h [2, 1] = [1, 0] := by
  obtain ⟨h, a, b, c, d, _⟩ := (C56_div exactRoots_law (k := 1) (by omega) (by omega) (f := [1, 0]) (g := [2, 1]) rfl rfl (by simp [Real', Complex.conj_ofNat]) (by simp [Real', Complex.conj_ofNat])).1 eval2_ne
  exact ⟨h, a, b, c, d⟩

/-- Division by zero is reachable. -/
example : div exactRoots Complex.I [1, 0] [0, 0] = .error .runtimeError :=
  (C56_div exactRoots_law (k := 1) (by omega) (by omega) rfl rfl (by simp [Real', Complex.conj_ofNat]) (by simp [Real', Complex.conj_ofNat])).2 ⟨0, by norm_num, by simp [evalAt, sum_range_succ]⟩

/-- A self-adjoint matrix with invertible corner. -/
def toyG : Mat ℂ := ⟨[2, 0], [1, -1], [1, 1], [3, 0]⟩

theorem toyG_selfAdj : SelfAdj 1 toyG where
  len := ⟨rfl, rfl, rfl, rfl⟩
  real := by simp [Mat.Real, Real', toyG, Complex.conj_ofNat]
  a := by simp [adjSpec, vec, toyG, List.range_succ]
  b := by simp [adjSpec, vec, toyG, List.range_succ]
  d := by simp [adjSpec, vec, toyG, List.range_succ]

theorem toyG_corner : ∀ i < 2 ^ 1, evalAt (exactRoots (2 ^ 1) i) toyG.a ≠ 0 := by
  intro i hi
  simp [evalAt, toyG, sum_range_succ]

example : ∃ L D : Mat ℂ, ldl exactRoots Complex.I toyG = .ok ⟨L, D⟩ ∧ pmatMul (2 ^ 1) (pmatMul (2 ^ 1) L.mat D.mat) (pmatAdj L.mat) = toyG.mat := by
  obtain ⟨L, D, e, _, h⟩ := C57_ldl exactRoots_law (k := 1) (by omega) (by omega) toyG_selfAdj.len toyG_selfAdj.real toyG_selfAdj.a toyG_selfAdj.b toyG_corner
  exact ⟨L, D, e, h⟩

example : ∃ L D : Mat ℂ, ldlFft ⟨[2, 5], [Complex.I, 1], [-Complex.I, 1], [3, 4]⟩ = .ok ⟨L, D⟩ := by
  obtain ⟨L, D, e, _⟩ := C57_ldl_fft (n := 2) (G := (⟨[2, 5], [Complex.I, 1], [-Complex.I, 1], [3, 4]⟩ : Mat ℂ)) ⟨rfl, rfl, rfl, rfl⟩
    (by intro i hi; interval_cases i <;> simp) (by intro i hi; interval_cases i <;> simp) (by intro i hi; interval_cases i <;> simp)
  exact ⟨L, D, e⟩

example : ∃ T, ffldl exactRoots Complex.I toyG = .ok T ∧ RealShaped 1 T := by
  rcases C72_ffldl exactRoots_law (k := 1) (by omega) (by omega) toyG_selfAdj (G' := trMat exactRoots 1 toyG)
    (fft_eq exactRoots_law (by omega) (by omega) toyG_selfAdj.len.1) (fft_eq exactRoots_law (by omega) (by omega) toyG_selfAdj.len.2.1)
    (fft_eq exactRoots_law (by omega) (by omega) toyG_selfAdj.len.2.2.1) (fft_eq exactRoots_law (by omega) (by omega) toyG_selfAdj.len.2.2.2) with ⟨e, h, _⟩ | ⟨T, h, _, hs⟩
  · obtain ⟨l, d, e1, _⟩ := ldl_eq exactRoots_law (k := 1) (by omega) (by omega) toyG_selfAdj.len toyG_selfAdj.real toyG_corner
    unfold ffldl ffldlLoop at h
    rw [e1] at h
    exact absurd h (by simp [toyG])
  · exact ⟨T, h, hs⟩

/-- A tree of the right shape, a counter as sampler. -/
def toyTree : Tree ℂ := .node [1, Complex.I] (.leaf [2, 0]) (.leaf [3, 0])

example : ∃ Z0 Z1 st', ffSampling exactRoots (fun (st : Nat) _ _ => ((st : Int), st + 1)) [1, 2] [3, 4] toyTree 0 = .ok ((Z0, Z1), st') := by
  obtain ⟨_, _, Z0, Z1, st', _, _, e, _⟩ := C58_ffsampling exactRoots_law (fun (st : Nat) _ _ => ((st : Int), st + 1)) (k := 1) (by omega) (by omega) (t0 := [1, 2]) (t1 := [3, 4]) rfl rfl
    (T := toyTree) ⟨rfl, by simp [Shaped], by simp [Shaped]⟩ 0
  exact ⟨Z0, Z1, st', e⟩

/-- C70 applies to the key of the signing examples. -/
example (B : Mat ℂ) (T : Tree ℂ) (hT : mkTree exactRoots Complex.I sqrtC 165 (toK Falcon.toyKey.f) (toK Falcon.toyKey.g) (toK Falcon.toyKey.F) (toK Falcon.toyKey.G) = .ok (B, T)) :
    ∃ (s0 s1 : List Int) (st' : Nat), samplePreimageFft exactRoots Complex.I (fun (st : Nat) _ _ => ((st : Int), st + 1)) (fun z => ⌊z.re⌋) B T [1000, 2000] 0 = .ok ((s0, s1), st') ∧
      Falcon.IsPreimage (2 ^ 1) Falcon.toyKey.h [1000, 2000] s0 s1 :=
  C70_preimage exactRoots_law (k := 1) (by omega) (by omega) Falcon.toyIsKey (by norm_num) _ (by intro m; simp) hT rfl 0

/-- A solution of the NTRU equation in dimension 2. -/
theorem toyNtru : Ntru (2 ^ 1) [108, 25] [1, 1] [108, 25] [109, -24] := ⟨rfl, rfl, rfl, rfl, by decide +kernel⟩

example : ∃ B T, mkTree exactRoots Complex.I sqrtC 165 (toK [108, 25]) (toK [1, 1]) (toK [108, 25]) (toK [109, -24]) = .ok (B, T) ∧
    ∃ (s0 s1 : List Int) (st' : Nat) (log : List (ℂ × ℂ × Int)), samplePreimageFft exactRoots Complex.I (fun (st : Nat) _ _ => ((st : Int), st + 1)) (fun z => ⌊z.re⌋) B T [1000, 2000] 0 = .ok ((s0, s1), st') ∧ log.length = 4 ∧
      ((((s0.map fun x => x ^ 2).sum + (s1.map fun x => x ^ 2).sum : Int)) : ℂ) = 165 ^ 2 * (log.map fun e : ℂ × ℂ × Int => ((e.1 - (e.2.2 : ℂ)) / e.2.1) ^ 2).sum := by
  obtain ⟨B, T, e, _⟩ := C71_key_setup exactRoots_law (k := 1) (by omega) (by omega) toyNtru 165
  obtain ⟨s0, s1, st', log, e1, _, l, n⟩ := C70_norm exactRoots_law (k := 1) (by omega) (by omega) toyNtru (sigma := 165) (by norm_num) (fun (st : Nat) _ _ => ((st : Int), st + 1))
    (rnd := fun z => ⌊z.re⌋) (by intro m; simp) e (point := [1000, 2000]) rfl 0
  exact ⟨B, _, e, s0, s1, st', log, e1, l, n⟩

end Verif.FFT
