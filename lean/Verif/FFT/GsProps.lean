import Verif.FFT.GsNorm
import Verif.FFT.Props
import Verif.CRef.OrthProps
import Verif.Falcon.KeygenProps

/-! # C111: what `gs_norm` measures -/

namespace Verif.FFT

open Finset
open Verif.CRef.Orth (IsOrth gramAt value sqNorm C107_vector)
open Verif.CRef.Fft (pev root)

variable {R : Nat → Nat → ℂ} {I : ℂ} (hR : RootLaw R I)

/-- The number `gs_norm(f, g, q)` returns: the larger of the two squared norms. -/
noncomputable def gsNorm (R : Nat → Nat → ℂ) (I : ℂ) (f g : List Int) : Except Err ℝ :=
  match gsNorms R I (toK f) (toK g) with
  | .error e => .error e
  | .ok r => .ok (max r.1.re r.2.re)

theorem value_eq {k : ℕ} {f : List ℤ} (lf : f.length = 2 ^ k) (w : ℂ) : value k f w = evalAt w (toK f) := by
  rw [evalAt_toK w _ f lf]
  unfold value pev
  push_cast
  rfl

theorem pev_eq {k : ℕ} {h : List ℂ} (lh : h.length = 2 ^ k) (rh : Real' h) (c : ℝ) (w : ℂ) : pev k (fun j => c * (h.getD j 0).re) w = c * evalAt w h := by
  unfold pev evalAt
  rw [lh, mul_sum]
  refine sum_congr rfl fun j _ => ?_
  have : ((h.getD j 0).re : ℂ) = h.getD j 0 := Complex.conj_eq_iff_re.1 (rh.getD j)
  push_cast
  rw [this]; ring

include hR in
/-- `f f* + g g*` as the code computes it. -/
theorem gram_eval {k : ℕ} (h1 : 1 ≤ k) (h2 : k ≤ 10) {f g : List ℤ} (lf : f.length = 2 ^ k) (lg : g.length = 2 ^ k) (i : ℕ) (hi : i < 2 ^ k) :
    evalAt (R (2 ^ k) i) (polyAdd (2 ^ k) (Ring.negMul (2 ^ k) (toK f) (adjSpec (toK f))) (Ring.negMul (2 ^ k) (toK g) (adjSpec (toK g)))) = (gramAt k f g (R (2 ^ k) i) : ℂ) := by
  have hp := hR.pow h1 h2 i hi
  have hu := hR.unit k i h1 h2 hi
  have one : ∀ f : List ℤ, f.length = 2 ^ k → evalAt (R (2 ^ k) i) (Ring.negMul (2 ^ k) (toK f) (adjSpec (toK f))) = ((‖value k f (R (2 ^ k) i)‖ ^ 2 : ℝ) : ℂ) := by
    intro f lf
    rw [evalAt_negMul hp (by rw [length_toK, lf]) (by rw [length_adjSpec, length_toK, lf]), evalAt_adjSpec hp hu (by rw [length_toK, lf]) (real_toK f), value_eq lf]
    rw [← Complex.normSq_eq_norm_sq]
    exact Complex.mul_conj _
  rw [evalAt_polyAdd hR (n := 2 ^ k) (Ring.length_negMul _ _ _) (Ring.length_negMul _ _ _), one f lf, one g lg]
  unfold gramAt
  push_cast
  rfl

theorem add_polyAdd {n : ℕ} {a b : List ℂ} (ha : a.length = n) (hb : b.length = n) : add a b = .ok (polyAdd n a b) := by
  unfold add polyAdd vec
  rw [if_pos (by rw [ha, hb]), ha]

theorem list_sum {A : Type} [AddCommMonoid A] (φ : ℕ → A) : ∀ n, ((List.range n).map φ).sum = ∑ j ∈ range n, φ j
  | 0 => rfl
  | n + 1 => by rw [List.range_succ, List.map_append, List.sum_append, list_sum φ n, sum_range_succ]; simp

theorem sum_sq_re {k : ℕ} {h : List ℂ} (lh : h.length = 2 ^ k) (rh : Real' h) : (h.map fun x => x ^ 2).sum = ((∑ j ∈ range (2 ^ k), (h.getD j 0).re ^ 2 : ℝ) : ℂ) := by
  have e : h.map (fun x => x ^ 2) = (List.range (2 ^ k)).map fun j => (h.getD j 0) ^ 2 := by
    conv_lhs => rw [eq_vec' lh]
    unfold vec
    rw [List.map_map]; rfl
  rw [e, list_sum]
  push_cast
  refine sum_congr rfl fun j _ => ?_
  have : ((h.getD j 0).re : ℂ) = h.getD j 0 := Complex.conj_eq_iff_re.1 (rh.getD j)
  rw [this]

theorem sum_sq_int (f : List ℤ) : ((toK f : List ℂ).map fun x => x ^ 2).sum = (((f.map fun x => x ^ 2).sum : ℤ) : ℂ) := by
  induction f with
  | nil => simp [toK]
  | cons x f ih =>
    have : (toK (x :: f) : List ℂ) = (x : ℂ) :: toK f := rfl
    rw [this, List.map_cons, List.sum_cons, ih, List.map_cons, List.sum_cons]
    push_cast
    rfl

/-- The common part of the computation. -/
theorem gs_start (hR : RootLaw R I) {k : ℕ} (h1 : 1 ≤ k) (h2 : k ≤ 10) {f g : List ℤ} (lf : f.length = 2 ^ k) (lg : g.length = 2 ^ k) :
    gsNorms R I (toK f) (toK g) =
      match div R I (adjSpec (toK g)) (polyAdd (2 ^ k) (Ring.negMul (2 ^ k) (toK f) (adjSpec (toK f))) (Ring.negMul (2 ^ k) (toK g) (adjSpec (toK g)))) with
      | .error e => .error e
      | .ok Ft => match div R I (adjSpec (toK f)) (polyAdd (2 ^ k) (Ring.negMul (2 ^ k) (toK f) (adjSpec (toK f))) (Ring.negMul (2 ^ k) (toK g) (adjSpec (toK g)))) with
        | .error e => .error e
        | .ok Gt => .ok (sqnorm (toK f) (toK g), 12289 ^ 2 * sqnorm Ft Gt) := by
  have kf : (toK f : List ℂ).length = 2 ^ k := by rw [length_toK, lf]
  have kg : (toK g : List ℂ).length = 2 ^ k := by rw [length_toK, lg]
  unfold gsNorms
  rw [adj_eq hR h1 h2 kf (real_toK f)]
  dsimp only
  rw [mul_eq hR h1 h2 kf (by rw [length_adjSpec, kf]) (real_toK f) (real_adjSpec (real_toK f))]
  dsimp only
  rw [adj_eq hR h1 h2 kg (real_toK g)]
  dsimp only
  rw [mul_eq hR h1 h2 kg (by rw [length_adjSpec, kg]) (real_toK g) (real_adjSpec (real_toK g))]
  dsimp only
  rw [add_polyAdd (n := 2 ^ k) (by simp) (by simp)]
  dsimp only
  obtain ⟨D, hD⟩ : ∃ D, polyAdd (2 ^ k) (Ring.negMul (2 ^ k) (toK f) (adjSpec (toK f))) (Ring.negMul (2 ^ k) (toK g) (adjSpec (toK g)) : List ℂ) = D := ⟨_, rfl⟩
  rw [hD]
  cases div R I (adjSpec (toK g)) D with
  | error e => rfl
  | ok a =>
    dsimp only
    cases div R I (adjSpec (toK f)) D with
    | error e => rfl
    | ok b => rfl

/-- **C111 (value)**: in exact arithmetic `gs_norm(f, g, q)` is the larger of the squared norm of `(f, g)` and the squared norm of `(q f* / (ff* + gg*), q g* / (ff* + gg*))`. -/
theorem C111_value (hR : RootLaw R I) {k : ℕ} (h1 : 1 ≤ k) (h2 : k ≤ 10) {f g : List ℤ} (lf : f.length = 2 ^ k) (lg : g.length = 2 ^ k) (r1 r2 : ℕ → ℝ) (hr : IsOrth k f g r1 r2) :
    gsNorm R I f g = .ok (max (((f.map fun x => x ^ 2).sum + (g.map fun x => x ^ 2).sum : ℤ) : ℝ) (sqNorm k r1 r2)) := by
  have kf : (toK f : List ℂ).length = 2 ^ k := by rw [length_toK, lf]
  have kg : (toK g : List ℂ).length = 2 ^ k := by rw [length_toK, lg]
  have hp := fun i hi => hR.pow h1 h2 i hi
  obtain ⟨D, hD⟩ : ∃ D, D = polyAdd (2 ^ k) (Ring.negMul (2 ^ k) (toK f) (adjSpec (toK f))) (Ring.negMul (2 ^ k) (toK g) (adjSpec (toK g)) : List ℂ) := ⟨_, rfl⟩
  have lD : D.length = 2 ^ k := by rw [hD]; simp [polyAdd]
  have rD : Real' D := by rw [hD]; exact real_polyAdd hR (real_negMul (real_toK f) (real_adjSpec (real_toK f))) (real_negMul (real_toK g) (real_adjSpec (real_toK g)))
  have eD : ∀ i < 2 ^ k, evalAt (R (2 ^ k) i) D = (gramAt k f g (R (2 ^ k) i) : ℂ) := fun i hi => by rw [hD]; exact gram_eval hR h1 h2 lf lg i hi
  have D0 : ∀ i < 2 ^ k, evalAt (R (2 ^ k) i) D ≠ 0 := fun i hi => by rw [eD i hi]; exact_mod_cast (hr _ (hp i hi)).1
  obtain ⟨Ft, e1, l1, re1, v1, -⟩ := div_eq hR h1 h2 (f := adjSpec (toK g)) (by rw [length_adjSpec, kg]) lD (real_adjSpec (real_toK g)) rD D0
  obtain ⟨Gt, e2, l2, re2, v2, -⟩ := div_eq hR h1 h2 (f := adjSpec (toK f)) (by rw [length_adjSpec, kf]) lD (real_adjSpec (real_toK f)) rD D0
  -- the vector computed is the orthogonalized one
  have O : IsOrth k f g (fun j => 12289 * (Gt.getD j 0).re) (fun j => 12289 * (Ft.getD j 0).re) := by
    intro w hw
    obtain ⟨i, hi, rfl⟩ := hR.complete h1 h2 w hw
    refine ⟨(hr _ hw).1, ?_, ?_⟩
    · rw [pev_eq l2 re2, v2 i hi, eD i hi, evalAt_adjSpec hw (hR.unit k i h1 h2 hi) kf (real_toK f), value_eq lf]
      push_cast
      exact mul_div_assoc' _ _ _
    · rw [pev_eq l1 re1, v1 i hi, eD i hi, evalAt_adjSpec hw (hR.unit k i h1 h2 hi) kg (real_toK g), value_eq lg]
      push_cast
      exact mul_div_assoc' _ _ _
  obtain ⟨s1, s2, _, U⟩ := C107_vector k h1 f g (fun w hw => (hr w hw).1)
  have eN : sqNorm k r1 r2 = 12289 ^ 2 * (∑ j ∈ range (2 ^ k), (Ft.getD j 0).re ^ 2 + ∑ j ∈ range (2 ^ k), (Gt.getD j 0).re ^ 2) := by
    unfold sqNorm
    rw [← sum_add_distrib, mul_sum]
    refine sum_congr rfl fun j hj => ?_
    have a := U _ _ hr j (mem_range.1 hj)
    have b := U _ _ O j (mem_range.1 hj)
    rw [a.1, a.2, ← b.1, ← b.2]
    ring
  unfold gsNorm
  rw [gs_start hR h1 h2 lf lg, ← hD, e1]
  dsimp only
  rw [e2]
  dsimp only
  unfold sqnorm
  rw [sum_sq_re l1 re1, sum_sq_re l2 re2, sum_sq_int, sum_sq_int, eN]
  congr 2
  · rw [← Int.cast_add, Complex.intCast_re]
  · norm_cast

/-- **C111 (exception)**: where `f f* + g g*` vanishes at a root of `x^n + 1` it raises ZeroDivisionError. -/
theorem C111_zero (hR : RootLaw R I) {k : ℕ} (h1 : 1 ≤ k) (h2 : k ≤ 10) {f g : List ℤ} (lf : f.length = 2 ^ k) (lg : g.length = 2 ^ k) (w : ℂ) (hw : w ^ 2 ^ k = -1) (h0 : gramAt k f g w = 0) :
    gsNorm R I f g = .error .runtimeError := by
  have kf : (toK f : List ℂ).length = 2 ^ k := by rw [length_toK, lf]
  have kg : (toK g : List ℂ).length = 2 ^ k := by rw [length_toK, lg]
  obtain ⟨i, hi, rfl⟩ := hR.complete h1 h2 w hw
  have := (C56_div hR h1 h2 (f := adjSpec (toK g)) (g := polyAdd (2 ^ k) (Ring.negMul (2 ^ k) (toK f) (adjSpec (toK f))) (Ring.negMul (2 ^ k) (toK g) (adjSpec (toK g)) : List ℂ))
    (by rw [length_adjSpec, kg]) (by simp [polyAdd]) (real_adjSpec (real_toK g))
    (real_polyAdd hR (real_negMul (real_toK f) (real_adjSpec (real_toK f))) (real_negMul (real_toK g) (real_adjSpec (real_toK g))))).2 ⟨i, hi, by rw [gram_eval hR h1 h2 lf lg i hi, h0]; simp⟩
  unfold gsNorm
  rw [gs_start hR h1 h2 lf lg, this]

/-- `(p1, p2) = (F, G) - c (f, g)` in `R[x]/(x^n + 1)`. -/
def Reduced (k : ℕ) (f g F G : List ℤ) (c p1 p2 : ℕ → ℝ) : Prop := ∀ w : ℂ, w ^ 2 ^ k = -1 →
  pev k p1 w = value k F w - pev k c w * value k f w ∧ pev k p2 w = value k G w - pev k c w * value k g w

theorem ntru_value {k : ℕ} {f g F G : List ℤ} (h : Ntru (2 ^ k) f g F G) (w : ℂ) (hw : w ^ 2 ^ k = -1) : value k f w * value k G w - value k g w * value k F w = 12289 := by
  rw [value_eq h.1, value_eq h.2.1, value_eq h.2.2.1, value_eq h.2.2.2.1]
  exact ntru_eval h (by positivity) hw

theorem gram_pos {k : ℕ} {f g F G : List ℤ} (h : Ntru (2 ^ k) f g F G) (w : ℂ) (hw : w ^ 2 ^ k = -1) : 0 < gramAt k f g w := by
  have e := ntru_value h w hw
  rcases lt_or_eq_of_le (CRef.Orth.gram_nonneg k f g w) with c | c
  · exact c
  · exfalso
    unfold gramAt at c
    have a : ‖value k f w‖ = 0 := by nlinarith [sq_nonneg ‖value k f w‖, sq_nonneg ‖value k g w‖]
    have b : ‖value k g w‖ = 0 := by nlinarith [sq_nonneg ‖value k f w‖, sq_nonneg ‖value k g w‖]
    rw [norm_eq_zero] at a b
    rw [a, b] at e
    norm_num at e

theorem conj_mul_norm (z : ℂ) : z * (starRingEnd ℂ) z = ((‖z‖ ^ 2 : ℝ) : ℂ) := by rw [Complex.mul_conj, Complex.normSq_eq_norm_sq]

/-- **C111 (meaning)**: for every completion `(F, G)` of `(f, g)` to a key, the second norm is the squared distance from `(F, G)` to the real multiples `c (f, g)`: no real `c` comes closer and one attains it.
So it is the squared norm of the second Gram–Schmidt vector of the secret basis, and depends on `f`, `g` only. -/
theorem C111_distance {k : ℕ} (h1 : 1 ≤ k) {f g F G : List ℤ} (h : Ntru (2 ^ k) f g F G) :
    ∃ r1 r2, IsOrth k f g r1 r2 ∧ (∃ c p1 p2, Reduced k f g F G c p1 p2 ∧ sqNorm k p1 p2 = sqNorm k r1 r2) ∧ ∀ c p1 p2, Reduced k f g F G c p1 p2 → sqNorm k r1 r2 ≤ sqNorm k p1 p2 := by
  obtain ⟨r1, r2, O, _⟩ := C107_vector k h1 f g (fun w hw => (gram_pos h w hw).ne')
  refine ⟨r1, r2, O, ?_, ?_⟩
  · obtain ⟨s, rfl⟩ : ∃ s, k = s + 1 := ⟨k - 1, by omega⟩
    obtain ⟨c, hc⟩ := CRef.Orth.interpolate s fun p => (value (s + 1) F (root (s + 1) p) * (starRingEnd ℂ) (value (s + 1) f (root (s + 1) p)) +
      value (s + 1) G (root (s + 1) p) * (starRingEnd ℂ) (value (s + 1) g (root (s + 1) p))) / (gramAt (s + 1) f g (root (s + 1) p) : ℂ)
    refine ⟨c, fun j => (-1) * r2 j, r1, ?_, ?_⟩
    · have main : ∀ p < 2 ^ s, pev (s + 1) (fun j => (-1) * r2 j) (root (s + 1) p) = value (s + 1) F (root (s + 1) p) - pev (s + 1) c (root (s + 1) p) * value (s + 1) f (root (s + 1) p) ∧
          pev (s + 1) r1 (root (s + 1) p) = value (s + 1) G (root (s + 1) p) - pev (s + 1) c (root (s + 1) p) * value (s + 1) g (root (s + 1) p) := by
        intro p hp
        have hw := CRef.Fft.root_pow (s + 1) p
        obtain ⟨d0, a, b⟩ := O _ hw
        have n := ntru_value h _ hw
        have d1 : (gramAt (s + 1) f g (root (s + 1) p) : ℂ) ≠ 0 := by exact_mod_cast d0
        have de : (gramAt (s + 1) f g (root (s + 1) p) : ℂ) = value (s + 1) f (root (s + 1) p) * (starRingEnd ℂ) (value (s + 1) f (root (s + 1) p)) +
            value (s + 1) g (root (s + 1) p) * (starRingEnd ℂ) (value (s + 1) g (root (s + 1) p)) := by
          rw [conj_mul_norm, conj_mul_norm, ← Complex.ofReal_add]; rfl
        rw [CRef.Fft.pev_smul, a, b, hc p hp]
        generalize (gramAt (s + 1) f g (root (s + 1) p) : ℂ) = d at *
        generalize value (s + 1) f (root (s + 1) p) = x at *
        generalize value (s + 1) g (root (s + 1) p) = y at *
        generalize value (s + 1) F (root (s + 1) p) = X at *
        generalize value (s + 1) G (root (s + 1) p) = Y at *
        generalize (starRingEnd ℂ) x = x' at *
        generalize (starRingEnd ℂ) y = y' at *
        push_cast
        constructor
        · field_simp
          rw [← n, de]; ring
        · field_simp
          rw [← n, de]; ring
      intro w hw
      obtain ⟨p, hp, rfl | rfl⟩ := CRef.Orth.roots_all s w hw
      · exact main p hp
      · obtain ⟨a, b⟩ := main p hp
        unfold value at a b ⊢
        rw [CRef.Orth.conj_pev, CRef.Orth.conj_pev, CRef.Orth.conj_pev, CRef.Orth.conj_pev, CRef.Orth.conj_pev, CRef.Orth.conj_pev, CRef.Orth.conj_pev, a, b]
        constructor <;> rw [map_sub, map_mul]
    · unfold sqNorm
      refine sum_congr rfl fun j _ => ?_
      ring
  · intro c p1 p2 hred
    obtain ⟨s, rfl⟩ : ∃ s, k = s + 1 := ⟨k - 1, by omega⟩
    have P1 := CRef.Orth.parseval s r1
    have P2 := CRef.Orth.parseval s r2
    have Q1 := CRef.Orth.parseval s p1
    have Q2 := CRef.Orth.parseval s p2
    have key : ∑ p ∈ range (2 ^ s), ‖pev (s + 1) r1 (root (s + 1) p)‖ ^ 2 + ∑ p ∈ range (2 ^ s), ‖pev (s + 1) r2 (root (s + 1) p)‖ ^ 2 ≤
        ∑ p ∈ range (2 ^ s), ‖pev (s + 1) p1 (root (s + 1) p)‖ ^ 2 + ∑ p ∈ range (2 ^ s), ‖pev (s + 1) p2 (root (s + 1) p)‖ ^ 2 := by
      rw [← sum_add_distrib, ← sum_add_distrib]
      refine sum_le_sum fun p hp => ?_
      have hw := CRef.Fft.root_pow (s + 1) p
      obtain ⟨-, a, b⟩ := O _ hw
      obtain ⟨e1, e2⟩ := hred _ hw
      have n := ntru_value h _ hw
      have d0 := gram_pos h _ hw
      have eq : value (s + 1) f (root (s + 1) p) * pev (s + 1) p2 (root (s + 1) p) - value (s + 1) g (root (s + 1) p) * pev (s + 1) p1 (root (s + 1) p) = 12289 := by
        rw [e1, e2, ← n]; ring
      have N1 : ‖value (s + 1) f (root (s + 1) p)‖ * ‖pev (s + 1) p2 (root (s + 1) p)‖ + ‖value (s + 1) g (root (s + 1) p)‖ * ‖pev (s + 1) p1 (root (s + 1) p)‖ ≥ 12289 := by
        have := norm_sub_le (value (s + 1) f (root (s + 1) p) * pev (s + 1) p2 (root (s + 1) p)) (value (s + 1) g (root (s + 1) p) * pev (s + 1) p1 (root (s + 1) p))
        rw [eq, norm_mul, norm_mul] at this
        have q : ‖(12289 : ℂ)‖ = 12289 := by simp
        rw [q] at this
        exact this
      have L : ‖pev (s + 1) r1 (root (s + 1) p)‖ ^ 2 + ‖pev (s + 1) r2 (root (s + 1) p)‖ ^ 2 = 12289 ^ 2 / gramAt (s + 1) f g (root (s + 1) p) := by
        rw [a, b, norm_div, norm_div, norm_mul, norm_mul, RCLike.norm_conj, RCLike.norm_conj, Complex.norm_real, Real.norm_of_nonneg d0.le, show ‖(12289 : ℂ)‖ = 12289 by simp]
        have : gramAt (s + 1) f g (root (s + 1) p) = ‖value (s + 1) f (root (s + 1) p)‖ ^ 2 + ‖value (s + 1) g (root (s + 1) p)‖ ^ 2 := rfl
        field_simp
        rw [this]
      rw [L, div_le_iff₀ d0]
      unfold gramAt
      generalize ‖value (s + 1) f (root (s + 1) p)‖ = x at *
      generalize ‖value (s + 1) g (root (s + 1) p)‖ = y at *
      generalize ‖pev (s + 1) p1 (root (s + 1) p)‖ = X at *
      generalize ‖pev (s + 1) p2 (root (s + 1) p)‖ = Y at *
      have s1 : (12289 : ℝ) ^ 2 ≤ (x * Y + y * X) ^ 2 := pow_le_pow_left₀ (by norm_num) N1 2
      nlinarith [sq_nonneg (x * X - y * Y), s1]
    rw [P1, P2, Q1, Q2, ← mul_add, ← mul_add] at key
    have := le_of_mul_le_mul_left key (by positivity)
    unfold sqNorm
    rw [sum_add_distrib, sum_add_distrib]
    exact this

theorem ntruSolve_ntru (K : Ring.KOracle) (rf : ℕ) {k : ℕ} {f g F G : List ℤ} (lf : f.length = 2 ^ k) (lg : g.length = 2 ^ k) (hs : Ring.ntruSolve K rf f g = .ok (some (F, G))) : Ntru (2 ^ k) f g F G := by
  obtain ⟨lF, lG, _⟩ := Ring.ntruSolve_correct K rf k f g F G lf lg hs
  refine ⟨lf, lg, lF, lG, fun i hi => ?_⟩
  have := Ring.ntruSolve_coeffs K rf k f g F G lf lg hs i hi
  rw [← this]
  unfold Ring.negMul
  rw [List.getD_eq_getElem _ _ (by simpa using hi), List.getD_eq_getElem _ _ (by simpa using hi)]
  simp

/-- **C111 (key generation)**: with the test made in exact arithmetic, in every key `ntru_gen` returns both Gram–Schmidt vectors of the secret basis have squared norm at most `1.17^2 q = 16822.4121`. -/
theorem C111_ntru_gen (hR : RootLaw R I) (P : Falcon.PolyLib) {k : ℕ} (h1 : 1 ≤ k) (h2 : k ≤ 10) (K : Ring.KOracle) (rf : ℕ) (tooLong : List ℤ → List ℤ → Bool)
    (hlong : ∀ f g x, f.length = 2 ^ k → g.length = 2 ^ k → gsNorm R I f g = .ok x → (tooLong f g = true ↔ x > 16822.4121)) (cand : ℕ → List ℤ × List ℤ)
    (hc : ∀ i, (cand i).1.length = 2 ^ k ∧ (cand i).2.length = 2 ^ k) (fuel : ℕ) (f g F G : List ℤ) (h : Falcon.ntruGen P K rf tooLong cand fuel 0 = some (.ok (f, g, F, G))) :
    (((f.map fun x => x ^ 2).sum + (g.map fun x => x ^ 2).sum : ℤ) : ℝ) ≤ 16822.4121 ∧ ∃ r1 r2, IsOrth k f g r1 r2 ∧ sqNorm k r1 r2 ≤ 16822.4121 ∧
      ∃ c p1 p2, Reduced k f g F G c p1 p2 ∧ sqNorm k p1 p2 = sqNorm k r1 r2 ∧ ∀ c' p1' p2', Reduced k f g F G c' p1' p2' → sqNorm k p1 p2 ≤ sqNorm k p1' p2' := by
  obtain ⟨j, e1, ht, _, hs, _⟩ := Falcon.ntruGen_spec P K rf tooLong cand f g F G fuel 0 h
  have lf : f.length = 2 ^ k := by have := (hc (0 + j)).1; rwa [e1] at this
  have lg : g.length = 2 ^ k := by have := (hc (0 + j)).2; rwa [e1] at this
  have N := ntruSolve_ntru K rf lf lg hs
  obtain ⟨r1, r2, O, ⟨c, p1, p2, hr, e⟩, hmin⟩ := C111_distance h1 N
  have v := C111_value hR h1 h2 lf lg r1 r2 O
  have := (hlong f g _ lf lg v).not.1 (by rw [ht]; simp)
  rw [gt_iff_lt, not_lt, max_le_iff] at this
  exact ⟨this.1, r1, r2, O, this.2, c, p1, p2, hr, e, fun c' p1' p2' h' => e ▸ hmin c' p1' p2' h'⟩

/-! ## Non-vacuity -/

/-- `f = 2`, `g = 1` in dimension 2: the second vector is `(q·2/5, q/5)`. -/
theorem toyOrth : IsOrth 1 [2, 0] [1, 0] (fun j => if j = 0 then 12289 * 2 / 5 else 0) (fun j => if j = 0 then 12289 / 5 else 0) := by
  intro w hw
  have vf : value 1 [2, 0] w = 2 := by simp [value, pev, sum_range_succ]
  have vg : value 1 [1, 0] w = 1 := by simp [value, pev, sum_range_succ]
  have gr : gramAt 1 [2, 0] [1, 0] w = 5 := by unfold gramAt; rw [vf, vg]; norm_num
  rw [gr, vf, vg]
  refine ⟨by norm_num, ?_, ?_⟩
  · simp [pev, sum_range_succ, Complex.conj_ofNat]
  · simp [pev, sum_range_succ]

example : gsNorm exactRoots Complex.I [2, 0] [1, 0] = .ok (12289 ^ 2 / 5) := by
  rw [C111_value exactRoots_law (k := 1) (by omega) (by omega) rfl rfl _ _ toyOrth]
  congr 1
  rw [max_eq_right]
  · unfold sqNorm; simp [sum_range_succ]; norm_num
  · unfold sqNorm; simp [sum_range_succ]; norm_num

example : gsNorm exactRoots Complex.I [0, 0] [0, 0] = .error .runtimeError :=
  C111_zero exactRoots_law (k := 1) (by omega) (by omega) rfl rfl Complex.I (by norm_num) (by unfold gramAt value pev; simp [sum_range_succ])

example : ∃ r1 r2, IsOrth 1 [108, 25] [1, 1] r1 r2 ∧ (∃ c p1 p2, Reduced 1 [108, 25] [1, 1] [108, 25] [109, -24] c p1 p2 ∧ sqNorm 1 p1 p2 = sqNorm 1 r1 r2) ∧
    ∀ c p1 p2, Reduced 1 [108, 25] [1, 1] [108, 25] [109, -24] c p1 p2 → sqNorm 1 r1 r2 ≤ sqNorm 1 p1 p2 := C111_distance (k := 1) (by omega) toyNtru

/-- A key in dimension 2 that passes the test: `100 + x`, `50 + 3x`. -/
theorem goodOrth : IsOrth 1 [100, 1] [50, 3] (fun j => if j = 0 then 12289 * 100 / 12510 else -12289 / 12510) (fun j => if j = 0 then 12289 * 50 / 12510 else -12289 * 3 / 12510) := by
  intro w hw
  have hc : w = Complex.I ∨ w = -Complex.I := by
    have : (w - Complex.I) * (w + Complex.I) = 0 := by linear_combination hw - Complex.I_sq
    rcases mul_eq_zero.1 this with c | c
    · exact .inl (sub_eq_zero.1 c)
    · exact .inr (eq_neg_of_add_eq_zero_left c)
  have vf : value 1 [100, 1] w = 100 + w := by simp [value, pev, sum_range_succ]
  have vg : value 1 [50, 3] w = 50 + 3 * w := by simp [value, pev, sum_range_succ]
  have cw : (starRingEnd ℂ) w = -w := by rcases hc with rfl | rfl <;> simp
  have gr : gramAt 1 [100, 1] [50, 3] w = 12510 := by
    unfold gramAt
    rw [vf, vg, ← Complex.normSq_eq_norm_sq, ← Complex.normSq_eq_norm_sq]
    rcases hc with rfl | rfl <;> norm_num [Complex.normSq_apply]
  rw [gr, vf, vg]
  refine ⟨by norm_num, ?_, ?_⟩
  · simp [pev, sum_range_succ, cw, Complex.conj_ofNat]; ring
  · simp [pev, sum_range_succ, cw, Complex.conj_ofNat]; ring

open Classical in
/-- The test in exact arithmetic. -/
noncomputable def exactTooLong (f g : List ℤ) : Bool := decide (∃ x, gsNorm exactRoots Complex.I f g = .ok x ∧ x > 16822.4121)

open Classical in
theorem exactTooLong_spec (f g : List ℤ) (x : ℝ) (h : gsNorm exactRoots Complex.I f g = .ok x) : exactTooLong f g = true ↔ x > 16822.4121 := by
  unfold exactTooLong
  rw [decide_eq_true_iff, h]
  exact ⟨fun ⟨y, e, c⟩ => by cases e; exact c, fun c => ⟨x, rfl, c⟩⟩

/-- The first candidate is too long, the second is accepted. -/
def gsCand (i : ℕ) : List ℤ × List ℤ := if i = 0 then ([2, 0], [1, 0]) else ([100, 1], [50, 3])

theorem gsGen : ∃ F G, Falcon.ntruGen (Falcon.lib 2) Falcon.toyK 5 exactTooLong gsCand 2 0 = some (.ok ([100, 1], [50, 3], F, G)) := by
  have t0 : exactTooLong [2, 0] [1, 0] = true := by
    refine (exactTooLong_spec _ _ _ (C111_value exactRoots_law (k := 1) (by omega) (by omega) rfl rfl _ _ toyOrth)).2 (lt_max_of_lt_right ?_)
    unfold sqNorm; simp [sum_range_succ]; norm_num
  have t1 : exactTooLong [100, 1] [50, 3] = false := by
    rw [Bool.eq_false_iff]
    refine (exactTooLong_spec _ _ _ (C111_value exactRoots_law (k := 1) (by omega) (by omega) rfl rfl _ _ goodOrth)).not.2 (not_lt.2 (max_le ?_ ?_))
    · norm_num
    · unfold sqNorm; simp [sum_range_succ]; norm_num
  have hs : ∃ F G, Ring.ntruSolve Falcon.toyK 5 [100, 1] [50, 3] = .ok (some (F, G)) := by
    have : (match Ring.ntruSolve Falcon.toyK 5 [100, 1] [50, 3] with | .ok (some _) => true | _ => false) = true := by decide +kernel
    split at this
    · rename_i x e; exact ⟨x.1, x.2, e⟩
    · cases this
  have hn : ((Falcon.lib 2).ntt [100, 1]).any (· == 0) = false := by decide +kernel
  obtain ⟨F, G, hs⟩ := hs
  exact ⟨F, G, by simp [Falcon.ntruGen, gsCand, t0, t1, hn, hs]⟩

example : ∃ F G r1 r2, IsOrth 1 [100, 1] [50, 3] r1 r2 ∧ sqNorm 1 r1 r2 ≤ 16822.4121 ∧ ∃ c p1 p2, Reduced 1 [100, 1] [50, 3] F G c p1 p2 ∧ sqNorm 1 p1 p2 = sqNorm 1 r1 r2 := by
  obtain ⟨F, G, h⟩ := gsGen
  obtain ⟨_, r1, r2, a, b, c, p1, p2, d, e, _⟩ := C111_ntru_gen exactRoots_law (Falcon.lib 2) (k := 1) (by omega) (by omega) Falcon.toyK 5 exactTooLong (fun f g x _ _ => exactTooLong_spec f g x) gsCand
    (by intro i; unfold gsCand; split <;> exact ⟨rfl, rfl⟩) 2 _ _ _ _ h
  exact ⟨F, G, r1, r2, a, b, c, p1, p2, d, e⟩

end Verif.FFT
