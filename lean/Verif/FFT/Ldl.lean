import Verif.FFT.Ops

namespace Verif.FFT

open Finset

set_option linter.unusedSectionVars false

variable {K : Type} [Field K] [StarRing K] [DecidableEq K]

/-- The 2 × 2 matrix of numbers at index `i` of a matrix of transforms. -/
def Mat.val (A : Mat K) (i : Nat) : Matrix (Fin 2) (Fin 2) K := !![A.a.getD i 0, A.b.getD i 0; A.c.getD i 0, A.d.getD i 0]

/-- The matrix of polynomials. -/
def Mat.mat (A : Mat K) : Matrix (Fin 2) (Fin 2) (List K) := !![A.a, A.b; A.c, A.d]

/-- All entries have length `n`. -/
def Mat.Len (A : Mat K) (n : Nat) : Prop := A.a.length = n ∧ A.b.length = n ∧ A.c.length = n ∧ A.d.length = n

/-- All entries are real polynomials. -/
def Mat.Real (A : Mat K) : Prop := Real' A.a ∧ Real' A.b ∧ Real' A.c ∧ Real' A.d

theorem replicate_vec (n : Nat) (x : K) : List.replicate n x = vec n fun _ => x := by
  unfold vec; simp

theorem one_vec {n : Nat} (h : 0 < n) : (1 : K) :: List.replicate (n - 1) 0 = poly1 n := by
  unfold poly1
  apply list_ext (n := n) (by simp; omega) (by simp)
  intro i hi
  rw [getD_vec_lt hi]
  rcases i with _ | i
  · simp
  · rw [List.getD_cons_succ, replicate_vec, getD_vec_lt (by omega), if_neg (by omega)]

/-- What `ldl_fft` returns. -/
theorem ldlFft_eq {n : Nat} {G : Mat K} (hG : G.Len n) (h0 : ∀ i < n, G.a.getD i 0 ≠ 0) : ldlFft G = .ok
    ⟨⟨vec n fun _ => 1, vec n fun _ => 0, vec n fun i => G.c.getD i 0 / G.a.getD i 0, vec n fun _ => 1⟩,
     ⟨G.a, vec n fun _ => 0, vec n fun _ => 0, vec n fun i => G.d.getD i 0 - G.c.getD i 0 / G.a.getD i 0 * star (G.c.getD i 0 / G.a.getD i 0) * G.a.getD i 0⟩⟩ := by
  obtain ⟨ha, hb, hc, hd⟩ := hG
  have ea := eq_vec' ha
  have ec := eq_vec' hc
  have ed := eq_vec' hd
  have e1 : divFft G.c G.a = .ok (vec n fun i => G.c.getD i 0 / G.a.getD i 0) := by
    conv_lhs => rw [ea, ec]
    exact divFft_vec _ _ _ h0
  have e2 : ∀ φ : Nat → K, mulFft (vec n φ) G.a = .ok (vec n fun i => φ i * G.a.getD i 0) := by
    intro φ
    conv_lhs => rw [ea]
    exact mulFft_vec _ _ _
  have e3 : ∀ φ : Nat → K, sub G.d (vec n φ) = .ok (vec n fun i => G.d.getD i 0 - φ i) := by
    intro φ
    conv_lhs => rw [ed]
    exact sub_vec _ _ _
  unfold ldlFft
  rw [e1]
  dsimp only
  rw [adjFft_vec, mulFft_vec]
  dsimp only
  rw [e2]
  dsimp only
  rw [e3, ha, replicate_vec, replicate_vec]

theorem ldlFft_zero {n : Nat} {G : Mat K} (hG : G.Len n) {i : Nat} (hi : i < n) (h0 : G.a.getD i 0 = 0) : ldlFft G = .error .runtimeError := by
  obtain ⟨ha, hb, hc, hd⟩ := hG
  unfold ldlFft
  have e1 : divFft G.c G.a = .error .runtimeError := by
    rw [eq_vec' ha, eq_vec' hc]
    exact divFft_vec_zero _ _ _ hi h0
  rw [e1]

theorem ldl_matrix (a b c d : K) (h0 : a ≠ 0) (ha : star a = a) (hb : b = star c) :
    !![1, 0; c / a, 1] * !![a, 0; 0, d - c / a * star (c / a) * a] * Matrix.conjTranspose !![1, 0; c / a, 1] = !![a, b; c, d] := by
  ext i j
  fin_cases i <;> fin_cases j <;> simp [Matrix.mul_apply, Fin.sum_univ_two, Matrix.conjTranspose_apply, ha, hb]
  · field_simp
  · field_simp
  · field_simp; ring

section Roots
variable {R : Nat → Nat → K} {I : K} (hR : RootLaw R I)
include hR

theorem length_polyAdd (n : Nat) (f g : List K) : (polyAdd n f g).length = n := by simp [polyAdd]

theorem real_polyAdd {n : Nat} {f g : List K} (hf : Real' f) (hg : Real' g) : Real' (polyAdd n f g) := by
  apply real_vec; intro i _; rw [star_add, hf.getD, hg.getD]

theorem evalAt_polyAdd {n : Nat} {f g : List K} (hf : f.length = n) (hg : g.length = n) (r : K) : evalAt r (polyAdd n f g) = evalAt r f + evalAt r g := by
  unfold polyAdd
  rw [evalAt_add, ← eq_vec' hf, ← eq_vec' hg]

theorem evalAt_poly1 {n : Nat} (h : 0 < n) (r : K) : evalAt r (poly1 n) = 1 := by
  unfold poly1
  rw [evalAt_vec, sum_eq_single 0]
  · simp
  · intro i _ hi; simp [hi]
  · intro h'; simp at h'; omega

theorem evalAt_poly0 (n : Nat) (r : K) : evalAt r (poly0 n : List K) = 0 := by
  unfold poly0
  rw [evalAt_vec]; simp

theorem real_poly1 (n : Nat) : Real' (poly1 n : List K) := by
  apply real_vec; intro i _; split <;> simp

theorem real_poly0 (n : Nat) : Real' (poly0 n : List K) := by
  apply real_vec; intro i _; simp

theorem add_eq {n : Nat} {f g : List K} (hf : f.length = n) (hg : g.length = n) : add f g = .ok (polyAdd n f g) := by
  unfold polyAdd
  rw [← add_vec, ← eq_vec' hf, ← eq_vec' hg]

theorem sub_eq {n : Nat} {f g : List K} (hf : f.length = n) (hg : g.length = n) : sub f g = .ok (vec n fun i => f.getD i 0 - g.getD i 0) := by
  rw [← sub_vec, ← eq_vec' hf, ← eq_vec' hg]

theorem gramEntry_eq {k : Nat} (h1 : 1 ≤ k) (h2 : k ≤ 10) {x0 x1 y0 y1 : List K} (hx0 : x0.length = 2 ^ k) (hx1 : x1.length = 2 ^ k) (hy0 : y0.length = 2 ^ k) (hy1 : y1.length = 2 ^ k)
    (rx0 : Real' x0) (rx1 : Real' x1) (ry0 : Real' y0) (ry1 : Real' y1) :
    gramEntry R I (2 ^ k) x0 x1 y0 y1 = .ok (polyAdd (2 ^ k) (Ring.negMul (2 ^ k) x0 (adjSpec y0)) (Ring.negMul (2 ^ k) x1 (adjSpec y1))) := by
  unfold gramEntry
  rw [adj_eq hR h1 h2 hy0 ry0]
  dsimp only
  rw [mul_eq hR h1 h2 hx0 (by rw [length_adjSpec, hy0]) rx0 (real_adjSpec ry0)]
  dsimp only
  rw [add_eq hR (n := 2 ^ k) (by simp) (by simp)]
  dsimp only
  rw [adj_eq hR h1 h2 hy1 ry1]
  dsimp only
  rw [mul_eq hR h1 h2 hx1 (by rw [length_adjSpec, hy1]) rx1 (real_adjSpec ry1)]
  dsimp only
  rw [add_eq hR (n := 2 ^ k) (length_polyAdd hR _ _ _) (by simp)]
  congr 1
  unfold polyAdd
  apply vec_congr; intro i hi
  rw [getD_vec_lt hi, replicate_vec, getD_vec_lt hi, zero_add]

theorem gram_eq {k : Nat} (h1 : 1 ≤ k) (h2 : k ≤ 10) {B : Mat K} (hB : B.Len (2 ^ k)) (rB : B.Real) :
    ∃ G, gram R I B = .ok G ∧ G.Len (2 ^ k) ∧ G.Real ∧ G.mat = pmatMul (2 ^ k) B.mat (pmatAdj B.mat) := by
  obtain ⟨ha, hb, hc, hd⟩ := hB
  obtain ⟨ra, rb, rc, rd⟩ := rB
  unfold gram
  rw [ha, gramEntry_eq hR h1 h2 ha hb ha hb ra rb ra rb, gramEntry_eq hR h1 h2 ha hb hc hd ra rb rc rd, gramEntry_eq hR h1 h2 hc hd ha hb rc rd ra rb, gramEntry_eq hR h1 h2 hc hd hc hd rc rd rc rd]
  have rr : ∀ {x0 x1 y0 y1 : List K}, Real' x0 → Real' x1 → Real' y0 → Real' y1 →
      Real' (polyAdd (2 ^ k) (Ring.negMul (2 ^ k) x0 (adjSpec y0)) (Ring.negMul (2 ^ k) x1 (adjSpec y1))) := fun a b c d =>
    real_polyAdd hR (real_negMul a (real_adjSpec c)) (real_negMul b (real_adjSpec d))
  refine ⟨_, rfl, ⟨length_polyAdd hR _ _ _, length_polyAdd hR _ _ _, length_polyAdd hR _ _ _, length_polyAdd hR _ _ _⟩,
    ⟨rr ra rb ra rb, rr ra rb rc rd, rr rc rd ra rb, rr rc rd rc rd⟩, ?_⟩
  funext i j
  fin_cases i <;> fin_cases j <;> rfl

/-- What the coefficient version `ldl` returns. -/
theorem ldl_eq {k : Nat} (h1 : 1 ≤ k) (h2 : k ≤ 10) {G : Mat K} (hG : G.Len (2 ^ k)) (rG : G.Real) (h0 : ∀ i < 2 ^ k, evalAt (R (2 ^ k) i) G.a ≠ 0) :
    ∃ l10 d11, ldl R I G = .ok ⟨⟨poly1 (2 ^ k), poly0 (2 ^ k), l10, poly1 (2 ^ k)⟩, ⟨G.a, poly0 (2 ^ k), poly0 (2 ^ k), d11⟩⟩ ∧
      l10.length = 2 ^ k ∧ d11.length = 2 ^ k ∧ Real' l10 ∧ Real' d11 ∧
      (∀ i < 2 ^ k, evalAt (R (2 ^ k) i) l10 = evalAt (R (2 ^ k) i) G.c / evalAt (R (2 ^ k) i) G.a) ∧
      (∀ i < 2 ^ k, evalAt (R (2 ^ k) i) d11 = evalAt (R (2 ^ k) i) G.d - evalAt (R (2 ^ k) i) l10 * star (evalAt (R (2 ^ k) i) l10) * evalAt (R (2 ^ k) i) G.a) := by
  obtain ⟨ha, hb, hc, hd⟩ := hG
  obtain ⟨ra, rb, rc, rd⟩ := rG
  obtain ⟨l, e1, hl, rl, el, _⟩ := div_eq hR h1 h2 hc ha rc ra h0
  have hal : (adjSpec l).length = 2 ^ k := by rw [length_adjSpec, hl]
  have ral := real_adjSpec rl
  refine ⟨l, vec (2 ^ k) fun i => G.d.getD i 0 - (Ring.negMul (2 ^ k) (Ring.negMul (2 ^ k) l (adjSpec l)) G.a).getD i 0, ?_, hl, ?_, rl, ?_, el, ?_⟩
  · unfold ldl
    rw [e1]
    dsimp only
    rw [adj_eq hR h1 h2 hl rl]
    dsimp only
    rw [mul_eq hR h1 h2 hl hal rl ral]
    dsimp only
    rw [mul_eq hR h1 h2 (by simp) ha (real_negMul rl ral) ra]
    dsimp only
    rw [sub_eq hR hd (by simp), ha, one_vec (by positivity), replicate_vec]; rfl
  · simp
  · apply real_vec; intro i _; rw [star_sub, rd.getD, (real_negMul (real_negMul rl ral) ra).getD]
  · intro i hi
    have hr := hR.pow h1 h2 i hi
    rw [evalAt_sub, ← eq_vec' hd, ← eq_vec' (Ring.length_negMul _ _ _), evalAt_negMul hr (by simp) ha, evalAt_negMul hr hl hal, evalAt_adjSpec hr (hR.unit k i h1 h2 hi) hl rl]

theorem ldl_zero {k : Nat} (h1 : 1 ≤ k) (h2 : k ≤ 10) {G : Mat K} (hG : G.Len (2 ^ k)) {i : Nat} (hi : i < 2 ^ k) (h0 : evalAt (R (2 ^ k) i) G.a = 0) : ldl R I G = .error .runtimeError := by
  unfold ldl
  rw [div_zero hR h1 h2 hG.2.2.1 hG.1 hi h0]

theorem pmat_ext {k : Nat} (h1 : 1 ≤ k) (h2 : k ≤ 10) {A B : Matrix (Fin 2) (Fin 2) (List K)} (hA : ∀ i j, (A i j).length = 2 ^ k) (hB : ∀ i j, (B i j).length = 2 ^ k)
    (rA : ∀ i j, Real' (A i j)) (rB : ∀ i j, Real' (B i j)) (h : ∀ m < 2 ^ k, ∀ i j, evalAt (R (2 ^ k) m) (A i j) = evalAt (R (2 ^ k) m) (B i j)) : A = B := by
  funext i j
  exact fft_inj hR h1 h2 (hA i j) (hB i j) (rA i j) (rB i j) fun m hm => h m hm i j

theorem evalAt_pmatMul {k : Nat} (h1 : 1 ≤ k) (h2 : k ≤ 10) {A B : Matrix (Fin 2) (Fin 2) (List K)} (hA : ∀ i j, (A i j).length = 2 ^ k) (hB : ∀ i j, (B i j).length = 2 ^ k) {m : Nat} (hm : m < 2 ^ k)
    (i j : Fin 2) : evalAt (R (2 ^ k) m) (pmatMul (2 ^ k) A B i j) = evalAt (R (2 ^ k) m) (A i 0) * evalAt (R (2 ^ k) m) (B 0 j) + evalAt (R (2 ^ k) m) (A i 1) * evalAt (R (2 ^ k) m) (B 1 j) := by
  have hr := hR.pow h1 h2 m hm
  unfold pmatMul
  rw [evalAt_polyAdd hR (by simp) (by simp), evalAt_negMul hr (hA _ _) (hB _ _), evalAt_negMul hr (hA _ _) (hB _ _)]

theorem real_pmatMul {n : Nat} {A B : Matrix (Fin 2) (Fin 2) (List K)} (hA : ∀ i j, Real' (A i j)) (hB : ∀ i j, Real' (B i j)) (i j : Fin 2) : Real' (pmatMul n A B i j) :=
  real_polyAdd hR (real_negMul (hA _ _) (hB _ _)) (real_negMul (hA _ _) (hB _ _))

theorem length_pmatMul {n : Nat} (A B : Matrix (Fin 2) (Fin 2) (List K)) (i j : Fin 2) : (pmatMul n A B i j).length = n := length_polyAdd hR _ _ _

theorem Mat.Len.mat {n : Nat} {A : Mat K} (h : A.Len n) (i j : Fin 2) : (A.mat i j).length = n := by
  obtain ⟨ha, hb, hc, hd⟩ := h
  fin_cases i <;> fin_cases j
  exacts [ha, hb, hc, hd]

theorem Mat.Real.mat {A : Mat K} (h : A.Real) (i j : Fin 2) : Real' (A.mat i j) := by
  obtain ⟨ha, hb, hc, hd⟩ := h
  fin_cases i <;> fin_cases j
  exacts [ha, hb, hc, hd]

/-- `ldl`: `L D L* = G` as matrices of polynomials modulo `x^n + 1`. -/
theorem ldl_product {k : Nat} (h1 : 1 ≤ k) (h2 : k ≤ 10) {G : Mat K} (hG : G.Len (2 ^ k)) (rG : G.Real) (ha : adjSpec G.a = G.a) (hb : G.b = adjSpec G.c)
    (h0 : ∀ i < 2 ^ k, evalAt (R (2 ^ k) i) G.a ≠ 0) :
    ∃ l10 d11, ldl R I G = .ok ⟨⟨poly1 (2 ^ k), poly0 (2 ^ k), l10, poly1 (2 ^ k)⟩, ⟨G.a, poly0 (2 ^ k), poly0 (2 ^ k), d11⟩⟩ ∧
      pmatMul (2 ^ k) (pmatMul (2 ^ k) !![poly1 (2 ^ k), poly0 (2 ^ k); l10, poly1 (2 ^ k)] !![G.a, poly0 (2 ^ k); poly0 (2 ^ k), d11]) (pmatAdj !![poly1 (2 ^ k), poly0 (2 ^ k); l10, poly1 (2 ^ k)]) = G.mat := by
  obtain ⟨l, d, e, hl, hd, rl, rd, el, ed⟩ := ldl_eq hR h1 h2 hG rG h0
  refine ⟨l, d, e, ?_⟩
  have hpos : 0 < 2 ^ k := by positivity
  have L1 : (poly1 (2 ^ k) : List K).length = 2 ^ k := by simp [poly1]
  have L0 : (poly0 (2 ^ k) : List K).length = 2 ^ k := by simp [poly0]
  have R1 := real_poly1 hR (2 ^ k)
  have R0 := real_poly0 hR (2 ^ k)
  have LL := Mat.Len.mat hR (A := ⟨poly1 (2 ^ k), poly0 (2 ^ k), l, poly1 (2 ^ k)⟩) ⟨L1, L0, hl, L1⟩
  have LD := Mat.Len.mat hR (A := ⟨G.a, poly0 (2 ^ k), poly0 (2 ^ k), d⟩) ⟨hG.1, L0, L0, hd⟩
  have RL := Mat.Real.mat hR (A := ⟨poly1 (2 ^ k), poly0 (2 ^ k), l, poly1 (2 ^ k)⟩) ⟨R1, R0, rl, R1⟩
  have RD := Mat.Real.mat hR (A := ⟨G.a, poly0 (2 ^ k), poly0 (2 ^ k), d⟩) ⟨rG.1, R0, R0, rd⟩
  simp only [Mat.mat] at LL LD RL RD
  have RA : ∀ i j, Real' (pmatAdj !![poly1 (2 ^ k), poly0 (2 ^ k); l, poly1 (2 ^ k)] i j) := fun i j => real_adjSpec (RL j i)
  apply pmat_ext hR h1 h2 (length_pmatMul hR _ _) (Mat.Len.mat hR hG) (real_pmatMul hR (real_pmatMul hR RL RD) RA) (Mat.Real.mat hR rG)
  intro m hm i j
  have hr := hR.pow h1 h2 m hm
  have hu := hR.unit k m h1 h2 hm
  have LA : ∀ i j, (pmatAdj !![poly1 (2 ^ k), poly0 (2 ^ k); l, poly1 (2 ^ k)] i j).length = 2 ^ k := fun i j => by unfold pmatAdj; rw [length_adjSpec]; exact LL j i
  rw [evalAt_pmatMul hR h1 h2 (length_pmatMul hR _ _) LA hm, evalAt_pmatMul hR h1 h2 LL LD hm, evalAt_pmatMul hR h1 h2 LL LD hm]
  unfold pmatAdj
  rw [evalAt_adjSpec hr hu (LL j 0) (RL j 0), evalAt_adjSpec hr hu (LL j 1) (RL j 1)]
  have e1 := evalAt_poly1 hR hpos (R (2 ^ k) m)
  have e0 := evalAt_poly0 hR (2 ^ k) (R (2 ^ k) m)
  have sa : star (evalAt (R (2 ^ k) m) G.a) = evalAt (R (2 ^ k) m) G.a := by rw [← evalAt_adjSpec hr hu hG.1 rG.1, ha]
  have eb : evalAt (R (2 ^ k) m) G.b = star (evalAt (R (2 ^ k) m) G.c) := by rw [hb, evalAt_adjSpec hr hu hG.2.2.1 rG.2.2.1]
  have h0 := h0 m hm
  fin_cases i <;> fin_cases j <;> simp [Mat.mat, e1, e0, el m hm, ed m hm, eb, sa]
  · field_simp
  · field_simp
  · field_simp; ring

end Roots

end Verif.FFT
