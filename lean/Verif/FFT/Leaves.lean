import Verif.FFT.GsProps
import Verif.FFT.Trace
import Verif.Falcon.Params
import Mathlib.Algebra.BigOperators.Field

/-! The leaves of the tree stay between the harmonic and the arithmetic mean of the first diagonal entry. -/

namespace Verif.FFT

open Finset Complex
open Verif.CRef.Orth (IsOrth gramAt value sqNorm C107_vector)
open Verif.CRef.Fft (pev root)

set_option linter.unusedSectionVars false

/-- The first `n` entries are positive reals with arithmetic mean at most `A` and mean of the inverses at most `B`. -/
def Means (n : ℕ) (D : List ℂ) (A B : ℝ) : Prop :=
  ∃ δ : ℕ → ℝ, (∀ i < n, 0 < δ i ∧ D.getD i 0 = (δ i : ℂ)) ∧ ∑ i ∈ range n, δ i ≤ n * A ∧ ∑ i ∈ range n, 1 / δ i ≤ n * B

/-- All leaves start with a positive real in `[1/B, A]`. -/
def LeafMean (A B : ℝ) : Tree ℂ → Prop
  | .leaf l => ∃ δ : ℝ, 0 < δ ∧ δ ≤ A ∧ 1 / δ ≤ B ∧ l.getD 0 0 = (δ : ℂ)
  | .node _ T0 T1 => LeafMean A B T0 ∧ LeafMean A B T1

theorem Means.pos {n : ℕ} {D : List ℂ} {A B : ℝ} (h : Means n D A B) : PosVec n D := by
  obtain ⟨δ, h, _⟩ := h
  exact fun i hi => ⟨δ i, h i hi⟩

theorem hm_am {x y : ℝ} (hx : 0 < x) (hy : 0 < y) : x * y / ((x + y) / 2) ≤ (x + y) / 2 := by
  rw [div_le_iff₀ (by positivity)]
  nlinarith [sq_nonneg (x - y)]

theorem inv_am {x y : ℝ} (hx : 0 < x) (hy : 0 < y) : 1 / ((x + y) / 2) ≤ (1 / x + 1 / y) / 2 := by
  rw [div_add_div _ _ hx.ne' hy.ne', div_div, div_le_div_iff₀ (by positivity) (by positivity)]
  nlinarith [sq_nonneg (x - y)]

variable {R : Nat → Nat → ℂ} {I : ℂ} (hR : RootLaw R I)
include hR

theorem means_split {k : ℕ} (h2 : k < 10) {D d0 d1 : List ℂ} {A B : ℝ} (hl : D.length = 2 ^ (k + 1)) (hD : Means (2 ^ (k + 1)) D A B) (hs : splitFft R D = .ok (d0, d1)) :
    Means (2 ^ k) d0 A B ∧ Means (2 ^ k) (vec (2 ^ k) fun i => d0.getD i 0 - (adjFft d1).getD i 0 / d0.getD i 0 * star ((adjFft d1).getD i 0 / d0.getD i 0) * d0.getD i 0) A B := by
  have e := pow_succ 2 k
  rw [splitFft_eq R (by omega) (by omega) hl] at hs
  injection hs with hs; injection hs with e0 e1
  simp only [Nat.add_sub_cancel] at e0 e1
  have l1 : d1.length = 2 ^ k := by rw [← e1]; simp
  obtain ⟨δ, hδ, sA, sB⟩ := hD
  have key : ∀ i < 2 ^ k, d0.getD i 0 = (((δ (2 * i) + δ (2 * i + 1)) / 2 : ℝ) : ℂ) ∧
      (adjFft d1).getD i 0 * star ((adjFft d1).getD i 0) = (((δ (2 * i) - δ (2 * i + 1)) / 2 * ((δ (2 * i) - δ (2 * i + 1)) / 2) : ℝ) : ℂ) := by
    intro i hi
    obtain ⟨hx, ex⟩ := hδ (2 * i) (by omega)
    obtain ⟨hy, ey⟩ := hδ (2 * i + 1) (by omega)
    generalize δ (2 * i) = x at *
    generalize δ (2 * i + 1) = y at *
    constructor
    · rw [← e0, getD_vec_lt hi, ex, ey]; push_cast; ring
    · have hu := hR.unit (k + 1) (2 * i) (by omega) (by omega) (by omega)
      rw [show adjFft d1 = vec (2 ^ k) fun i => star (d1.getD i 0) by rw [← adjFft_vec, ← eq_vec' l1], getD_vec_lt hi, star_star, ← e1, getD_vec_lt hi, ex, ey]
      simp only [star_mul', star_sub, star_div₀, star_one, star_ofNat, star_star]
      have sx : star (x : ℂ) = x := conj_ofReal x
      have sy : star (y : ℂ) = y := conj_ofReal y
      rw [sx, sy]
      push_cast
      linear_combination (1 / 4 * ((x : ℂ) - y) * (x - y)) * hu
  have pos : ∀ i < 2 ^ k, 0 < δ (2 * i) ∧ 0 < δ (2 * i + 1) := fun i hi => ⟨(hδ _ (by omega)).1, (hδ _ (by omega)).1⟩
  have pr : ∀ φ : ℕ → ℝ, ∑ i ∈ range (2 ^ (k + 1)), φ i = ∑ i ∈ range (2 ^ k), (φ (2 * i) + φ (2 * i + 1)) := by
    intro φ
    have : ∀ m, ∑ i ∈ range (2 * m), φ i = ∑ i ∈ range m, (φ (2 * i) + φ (2 * i + 1)) := by
      intro m
      induction m with
      | zero => simp
      | succ m ih => rw [show 2 * (m + 1) = 2 * m + 1 + 1 by ring, sum_range_succ, sum_range_succ, sum_range_succ, ih]; ring
    rw [e, mul_comm, this]
  have SA : ∑ i ∈ range (2 ^ k), (δ (2 * i) + δ (2 * i + 1)) / 2 ≤ (2 ^ k : ℕ) * A := by
    rw [← sum_div, ← pr, div_le_iff₀ (by norm_num)]
    refine sA.trans (le_of_eq ?_)
    push_cast; ring
  have SB : ∑ i ∈ range (2 ^ k), (1 / δ (2 * i) + 1 / δ (2 * i + 1)) / 2 ≤ (2 ^ k : ℕ) * B := by
    rw [← sum_div, ← pr fun i => 1 / δ i, div_le_iff₀ (by norm_num)]
    refine sB.trans (le_of_eq ?_)
    push_cast; ring
  constructor
  · refine ⟨fun i => (δ (2 * i) + δ (2 * i + 1)) / 2, fun i hi => ⟨?_, (key i hi).1⟩, SA, le_trans (sum_le_sum fun i hi => ?_) SB⟩
    · have := pos i hi; linarith
    · have := pos i (mem_range.1 hi); exact inv_am this.1 this.2
  · refine ⟨fun i => δ (2 * i) * δ (2 * i + 1) / ((δ (2 * i) + δ (2 * i + 1)) / 2), fun i hi => ?_, le_trans (sum_le_sum fun i hi => ?_) SA, le_trans (le_of_eq (sum_congr rfl fun i hi => ?_)) SB⟩
    · obtain ⟨hx, hy⟩ := pos i hi
      obtain ⟨h, h'⟩ := key i hi
      beta_reduce
      generalize δ (2 * i) = x at *
      generalize δ (2 * i + 1) = y at *
      refine ⟨by positivity, ?_⟩
      rw [getD_vec_lt hi, star_div₀, h]
      have hs : star ((((x + y) / 2 : ℝ) : ℂ)) = (((x + y) / 2 : ℝ) : ℂ) := conj_ofReal _
      have hne : (((x + y) / 2 : ℝ) : ℂ) ≠ 0 := by exact_mod_cast (by positivity : (0 : ℝ) < (x + y) / 2).ne'
      rw [hs, div_mul_div_comm, h', ofReal_div]
      field_simp
      norm_cast
      ring
    · have := pos i (mem_range.1 hi); exact hm_am this.1 this.2
    · obtain ⟨hx, hy⟩ := pos i (mem_range.1 hi)
      field_simp
      ring

theorem base_eq {D : List ℂ} {A B : ℝ} (hl : D.length = 2) (sc : SelfConj R D) (h : Means 2 D A B) : LeafMean A B (.leaf D) := by
  obtain ⟨δ, hδ, sA, sB⟩ := h
  obtain ⟨p0, e0⟩ := hδ 0 (by norm_num)
  obtain ⟨p1, e1⟩ := hδ 1 (by norm_num)
  have r1 : R 2 1 = star (R 2 0) := by
    have := hR.neg 1 0 (by norm_num) (by norm_num) (by norm_num)
    norm_num at this
    rw [this, hR.base, hR.starI]
  have := sc 0 1 (by omega) (by omega) (by rw [hl]; exact r1)
  rw [e0, e1] at this
  have e : δ 1 = δ 0 := by
    have h' : star ((δ 0 : ℝ) : ℂ) = δ 0 := conj_ofReal _
    rw [h'] at this
    exact_mod_cast this
  rw [sum_range_succ, sum_range_succ, sum_range_zero, e] at sA sB
  refine ⟨δ 0, p0, ?_, ?_, e0⟩
  · push_cast at sA; linarith
  · push_cast at sB; linarith

theorem ffldl_means (A B : ℝ) : ∀ (k : Nat), k + 1 ≤ 10 → ∀ (fuel : Nat) (G : Mat ℂ), Good R (k + 1) G → Means (2 ^ (k + 1)) G.a A B →
    Means (2 ^ (k + 1)) (vec (2 ^ (k + 1)) fun i => G.d.getD i 0 - G.c.getD i 0 / G.a.getD i 0 * star (G.c.getD i 0 / G.a.getD i 0) * G.a.getD i 0) A B →
    ∀ T, ffldlFftLoop R fuel G = .ok T → LeafMean A B T := by
  intro k
  induction k with
  | zero =>
    intro hk fuel G g pa pd T hT
    cases fuel with
    | zero => cases hT
    | succ fuel =>
    have h0 : ∀ i < 2 ^ (0 + 1), G.a.getD i 0 ≠ 0 := by
      intro i hi
      obtain ⟨δ, hd, e⟩ := pa.pos i hi
      rw [e]; exact_mod_cast hd.ne'
    unfold ffldlFftLoop at hT
    rw [ldlFft_eq g.len h0] at hT
    dsimp only at hT
    rw [g.len.1, if_neg (by norm_num), if_pos (by norm_num)] at hT
    cases hT
    exact ⟨base_eq hR g.len.1 g.sa pa, base_eq hR (length_vec _ _) (d11_conj hR g) pd⟩
  | succ k ih =>
    intro hk fuel G g pa pd T hT
    cases fuel with
    | zero => cases hT
    | succ fuel =>
    have h0 : ∀ i < 2 ^ (k + 1 + 1), G.a.getD i 0 ≠ 0 := by
      intro i hi
      obtain ⟨δ, hd, e⟩ := pa.pos i hi
      rw [e]; exact_mod_cast hd.ne'
    have e := pow_succ 2 (k + 1)
    have hp : 2 ≤ 2 ^ (k + 1) := by
      calc 2 = 2 ^ 1 := rfl
        _ ≤ 2 ^ (k + 1) := Nat.pow_le_pow_right (by omega) (by omega)
    have s1 := splitFft_eq R (k := k + 1 + 1) (by omega) hk g.len.1
    have s2 := splitFft_eq R (k := k + 1 + 1) (by omega) hk (length_vec (2 ^ (k + 1 + 1)) fun i => G.d.getD i 0 - G.c.getD i 0 / G.a.getD i 0 * star (G.c.getD i 0 / G.a.getD i 0) * G.a.getD i 0)
    obtain ⟨p1, q1⟩ := means_split hR (by omega) g.len.1 pa s1
    obtain ⟨p2, q2⟩ := means_split hR (by omega) (length_vec _ _) pd s2
    have i0 := ih (by omega) fuel _ (good_split hR (by omega) (by omega) g.len.1 g.sa g.ra s1) p1 q1
    have i1 := ih (by omega) fuel _ (good_split hR (by omega) (by omega) (length_vec _ _) (d11_conj hR g) (d11_real hR g) s2) p2 q2
    unfold ffldlFftLoop at hT
    rw [ldlFft_eq g.len h0] at hT
    dsimp only at hT
    rw [g.len.1, if_pos (by omega), s1] at hT
    dsimp only at hT
    rw [s2] at hT
    dsimp only at hT
    split at hT
    · cases hT
    · rename_i T0 r0
      split at hT
      · cases hT
      · rename_i T1 r1
        cases hT
        exact ⟨i0 T0 r0, i1 T1 r1⟩

/-- The means of the values `f f* + g g*` at the roots: the squared norms of the two Gram–Schmidt vectors. -/
theorem gram_means {k : ℕ} (h1 : 1 ≤ k) (h2 : k ≤ 10) {f g : List ℤ} (lf : f.length = 2 ^ k) (lg : g.length = 2 ^ k) (r1 r2 : ℕ → ℝ) (hr : IsOrth k f g r1 r2) :
    ∑ i ∈ range (2 ^ k), gramAt k f g (R (2 ^ k) i) = (2 ^ k : ℕ) * (((f.map fun x => x ^ 2).sum + (g.map fun x => x ^ 2).sum : ℤ) : ℝ) ∧
    ∑ i ∈ range (2 ^ k), 12289 ^ 2 / gramAt k f g (R (2 ^ k) i) = (2 ^ k : ℕ) * sqNorm k r1 r2 := by
  have kf : (toK f : List ℂ).length = 2 ^ k := by rw [length_toK, lf]
  have kg : (toK g : List ℂ).length = 2 ^ k := by rw [length_toK, lg]
  have sq : ∀ z : ℂ, z * star z = ((‖z‖ ^ 2 : ℝ) : ℂ) := fun z => by rw [normSq_star, Complex.normSq_eq_norm_sq]
  constructor
  · have P0 := parseval hR h1 h2 (toK f) (toK f) kf kf (real_toK _) (real_toK _)
    have P1 := parseval hR h1 h2 (toK g) (toK g) kg kg (real_toK _) (real_toK _)
    rw [← sumSq_range hR lf] at P0
    rw [← sumSq_range hR lg] at P1
    simp only [sq, ← value_eq lf, ← value_eq lg] at P0 P1
    have s : ∀ a : List ℤ, Falcon.sumSq a = (a.map fun x => x ^ 2).sum := by
      intro a
      exact rfl
    rw [← s, ← s]
    unfold gramAt
    rw [sum_add_distrib]
    have Q0 : ∑ i ∈ range (2 ^ k), ‖value k f (R (2 ^ k) i)‖ ^ 2 = (2 ^ k : ℕ) * ((Falcon.sumSq f : ℤ) : ℝ) := by exact_mod_cast P0
    have Q1 : ∑ i ∈ range (2 ^ k), ‖value k g (R (2 ^ k) i)‖ ^ 2 = (2 ^ k : ℕ) * ((Falcon.sumSq g : ℤ) : ℝ) := by exact_mod_cast P1
    rw [Q0, Q1]; push_cast; ring
  · have pe : ∀ (r : ℕ → ℝ) (w : ℂ), evalAt w (vec (2 ^ k) fun j => (r j : ℂ)) = pev k r w := by
      intro r w
      rw [evalAt_vec]
      rfl
    have rl : ∀ r : ℕ → ℝ, Real' (vec (2 ^ k) fun j => (r j : ℂ)) := fun r => real_vec fun i _ => conj_ofReal _
    have P : ∀ r : ℕ → ℝ, ∑ i ∈ range (2 ^ k), ‖pev k r (R (2 ^ k) i)‖ ^ 2 = (2 ^ k : ℕ) * ∑ i ∈ range (2 ^ k), r i ^ 2 := by
      intro r
      have := parseval hR h1 h2 _ _ (length_vec _ _) (length_vec _ _) (rl r) (rl r)
      simp only [pe, sq] at this
      have h4 : ∑ i ∈ range (2 ^ k), (vec (2 ^ k) fun j => (r j : ℂ)).getD i 0 * (vec (2 ^ k) fun j => (r j : ℂ)).getD i 0 = ∑ i ∈ range (2 ^ k), (r i : ℂ) * r i :=
        sum_congr rfl fun i hi => by rw [getD_vec_lt (mem_range.1 hi)]
      rw [h4] at this
      have h3 : ∑ i ∈ range (2 ^ k), ‖pev k r (R (2 ^ k) i)‖ ^ 2 = (2 ^ k : ℕ) * ∑ i ∈ range (2 ^ k), r i * r i := by exact_mod_cast this
      rw [h3]
      congr 1
      exact sum_congr rfl fun i _ => by ring
    unfold sqNorm
    rw [sum_add_distrib, mul_add, ← P, ← P, ← sum_add_distrib]
    refine sum_congr rfl fun i hi => ?_
    have hw := hR.pow h1 h2 i (mem_range.1 hi)
    obtain ⟨d0, a, b⟩ := hr _ hw
    have gd : gramAt k f g (R (2 ^ k) i) = ‖value k f (R (2 ^ k) i)‖ ^ 2 + ‖value k g (R (2 ^ k) i)‖ ^ 2 := rfl
    have dp : 0 ≤ gramAt k f g (R (2 ^ k) i) := CRef.Orth.gram_nonneg _ _ _ _
    rw [a, b, norm_div, norm_div, norm_mul, norm_mul, RCLike.norm_conj, RCLike.norm_conj, Complex.norm_real, Real.norm_of_nonneg dp, show ‖(12289 : ℂ)‖ = 12289 by simp]
    field_simp
    rw [gd]

/-- The tree of a key before normalization. -/
theorem key_leaves {k : ℕ} (h1 : 1 ≤ k) (h2 : k ≤ 10) {f g F G : List ℤ} (h : Ntru (2 ^ k) f g F G) {b x : ℝ} (hx : gsNorm R I f g = .ok x) (hb : x ≤ b) (sigma : ℂ) :
    ∃ B T, mkTree R I sqrtC sigma (toK f) (toK g) (toK F) (toK G) = .ok (B, normalizeTree sqrtC sigma T) ∧ LeafPos T ∧ LeafMean b (b / 12289 ^ 2) T := by
  obtain ⟨Gm, T, e, eT, good, pT, _, val⟩ := mkTree_ok hR h1 h2 h sigma
  refine ⟨_, T, e, pT, ?_⟩
  obtain ⟨r1, r2, O, _⟩ := C107_vector k h1 f g (fun w hw => (gram_pos h w hw).ne')
  obtain ⟨m1, m2⟩ := gram_means hR h1 h2 h.1 h.2.1 r1 r2 O
  rw [C111_value hR h1 h2 h.1 h.2.1 r1 r2 O] at hx
  injection hx with hx
  rw [← hx, max_le_iff] at hb
  have sq : ∀ z : ℂ, z * star z = ((‖z‖ ^ 2 : ℝ) : ℂ) := fun z => by rw [normSq_star, Complex.normSq_eq_norm_sq]
  have va : ∀ i < 2 ^ k, Gm.a.getD i 0 = (gramAt k f g (R (2 ^ k) i) : ℂ) := by
    intro i hi
    rw [(val i hi).1, sq, sq, ← value_eq h.1, ← value_eq h.2.1, ← ofReal_add, add_comm]
    rfl
  have pos : ∀ i < 2 ^ k, 0 < gramAt k f g (R (2 ^ k) i) := fun i hi => gram_pos h _ (hR.pow h1 h2 i hi)
  have Ma : Means (2 ^ k) Gm.a b (b / 12289 ^ 2) := by
    refine ⟨fun i => gramAt k f g (R (2 ^ k) i), fun i hi => ⟨pos i hi, va i hi⟩, ?_, ?_⟩
    · rw [m1]; exact mul_le_mul_of_nonneg_left hb.1 (by positivity)
    · have : ∀ i, 1 / gramAt k f g (R (2 ^ k) i) = 12289 ^ 2 / gramAt k f g (R (2 ^ k) i) / 12289 ^ 2 := fun i => by field_simp
      rw [sum_congr rfl fun i _ => this i, ← sum_div, m2, mul_div_assoc]
      exact mul_le_mul_of_nonneg_left (div_le_div_of_nonneg_right hb.2 (by positivity)) (by positivity)
  have Md : Means (2 ^ k) (vec (2 ^ k) fun i => Gm.d.getD i 0 - Gm.c.getD i 0 / Gm.a.getD i 0 * star (Gm.c.getD i 0 / Gm.a.getD i 0) * Gm.a.getD i 0) b (b / 12289 ^ 2) := by
    refine ⟨fun i => 12289 ^ 2 / gramAt k f g (R (2 ^ k) i), fun i hi => ⟨by have := pos i hi; positivity, ?_⟩, ?_, ?_⟩
    · have hd := pos i hi
      have ea := va i hi
      obtain ⟨va', vb, vc, vd⟩ := val i hi
      beta_reduce
      generalize gramAt k f g (R (2 ^ k) i) = δ at *
      have hne : (δ : ℂ) ≠ 0 := by exact_mod_cast hd.ne'
      have hs : star (δ : ℂ) = δ := conj_ofReal δ
      have hdet := ntru_eval h (by positivity) (hR.pow h1 h2 i hi)
      have hdet' := congrArg star hdet
      simp only [star_sub, star_mul', star_ofNat] at hdet'
      rw [getD_vec_lt hi, ea, star_div₀, hs]
      have goal : Gm.d.getD i 0 * (δ : ℂ) - Gm.c.getD i 0 * star (Gm.c.getD i 0) = 12289 ^ 2 := by
        rw [← ea, vd, va', vc]
        simp only [star_add, star_mul', star_star]
        linear_combination (evalAt (R (2 ^ k) i) (toK f) * evalAt (R (2 ^ k) i) (toK G) - evalAt (R (2 ^ k) i) (toK g) * evalAt (R (2 ^ k) i) (toK F)) * hdet' + 12289 * hdet
      rw [show ((12289 ^ 2 / δ : ℝ) : ℂ) = 12289 ^ 2 / (δ : ℂ) by push_cast; rfl, ← goal]
      field_simp
    · rw [m2]; exact mul_le_mul_of_nonneg_left hb.2 (by positivity)
    · have : ∀ i ∈ range (2 ^ k), 1 / (12289 ^ 2 / gramAt k f g (R (2 ^ k) i)) = gramAt k f g (R (2 ^ k) i) / 12289 ^ 2 := fun i hi => by
        have := pos i (mem_range.1 hi); field_simp
      rw [sum_congr rfl this, ← sum_div, m1, mul_div_assoc]
      exact mul_le_mul_of_nonneg_left (div_le_div_of_nonneg_right hb.1 (by positivity)) (by positivity)
  obtain ⟨j, rfl⟩ : ∃ j, k = j + 1 := ⟨k - 1, by omega⟩
  exact ffldl_means hR b _ j h2 _ Gm good Ma Md T eT

end Verif.FFT
