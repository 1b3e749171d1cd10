import Verif.Ring.Props
import Mathlib.RingTheory.Polynomial.Resultant.Basic
import Mathlib.Analysis.Complex.Polynomial.Basic

/-! # Property C16: when the solver fails -/

namespace Verif.Ring

open Polynomial Finset

/-- The resultant of `x^n + 1` and the polynomial of a coefficient list of length `n` (Mathlib's Sylvester determinant). -/
noncomputable def res (l : List ℤ) : ℤ := resultant (X ^ l.length + 1 : ℤ[X]) (toPoly l) l.length (l.length - 1)

theorem natDegree_toPoly_le (l : List ℤ) : (toPoly l).natDegree ≤ l.length - 1 := by
  rw [natDegree_le_iff_coeff_eq_zero]
  intro m hm
  rw [coeff_toPoly, at'_ge _ _ (by omega)]

/-- over the complex numbers the resultant is the product of the values at the roots of `x^n = -1` -/
theorem res_prod (l : List ℤ) (hn : 0 < l.length) :
    (res l : ℂ) = (((X ^ l.length + 1 : ℂ[X]).roots).map fun z => ev z l).prod := by
  have hm : (X ^ l.length + 1 : ℂ[X]).Monic := monic_X_pow_add_C 1 (by omega)
  have hd : (X ^ l.length + 1 : ℂ[X]).natDegree = l.length := natDegree_X_pow_add_C (r := (1 : ℂ))
  have h1 := resultant_eq_prod_eval (X ^ l.length + 1 : ℂ[X]) ((toPoly l).map (Int.castRingHom ℂ)) (l.length - 1)
    (natDegree_map_le.trans (natDegree_toPoly_le l)) (IsAlgClosed.splits _)
  rw [hd, hm.leadingCoeff, one_pow, one_mul] at h1
  have h2 := resultant_map_map (X ^ l.length + 1 : ℤ[X]) (toPoly l) l.length (l.length - 1) (Int.castRingHom ℂ)
  rw [Polynomial.map_add, Polynomial.map_pow, map_X, Polynomial.map_one, h1] at h2
  unfold res
  rw [← eq_intCast (Int.castRingHom ℂ), ← h2]
  congr 1
  apply Multiset.map_congr rfl
  intro z _
  rw [eval_map, ← aeval_toPoly]; rfl

theorem roots_double (m : ℕ) (hm : 0 < m) (φ : ℂ → ℂ) (ψ : ℂ → ℂ) (h : ∀ r : ℂ, r ^ (2 * m) = -1 → φ r * φ (-r) = ψ (r ^ 2)) :
    ((X ^ (2 * m) + 1 : ℂ[X]).roots.map φ).prod = ((X ^ m + 1 : ℂ[X]).roots.map ψ).prod := by
  have hmon : (X ^ m + 1 : ℂ[X]).Monic := monic_X_pow_add_C 1 (by omega)
  have hs : (X ^ m + 1 : ℂ[X]) = ((X ^ m + 1 : ℂ[X]).roots.map fun a => X - C a).prod :=
    (IsAlgClosed.splits (X ^ m + 1 : ℂ[X])).eq_prod_roots_of_monic hmon
  have hc : (X ^ (2 * m) + 1 : ℂ[X]) = ((X ^ m + 1 : ℂ[X]).roots.map fun a => (X ^ 2 - C a : ℂ[X])).prod := by
    have e : (X ^ (2 * m) + 1 : ℂ[X]) = (X ^ m + 1 : ℂ[X]).comp (X ^ 2) := by simp [pow_mul]
    rw [e]
    conv_lhs => rw [hs]
    rw [multiset_prod_comp, Multiset.map_map]
    congr 1
    apply Multiset.map_congr rfl
    intro a _; simp
  rw [hc, roots_multiset_prod _ (by
    intro h0
    obtain ⟨a, _, ha⟩ := Multiset.mem_map.1 h0
    exact (monic_X_pow_sub_C a (by norm_num : (2 : ℕ) ≠ 0)).ne_zero ha), Multiset.map_bind, Multiset.prod_bind, Multiset.map_map]
  congr 1
  apply Multiset.map_congr rfl
  intro a ha
  have ham : a ^ m = -1 := by
    have := (mem_roots hmon.ne_zero).1 ha
    rw [IsRoot.def, eval_add, eval_pow, eval_X, eval_one] at this
    exact eq_neg_of_add_eq_zero_left this
  obtain ⟨t, ht⟩ := IsAlgClosed.exists_pow_nat_eq a (by norm_num : 0 < 2)
  have hq : (X ^ 2 - C a : ℂ[X]) = (X - C t) * (X - C (-t)) := by
    rw [← ht, C_pow, C_neg]; ring
  rw [Function.comp_apply, hq, roots_mul (mul_ne_zero (X_sub_C_ne_zero _) (X_sub_C_ne_zero _)), roots_X_sub_C, roots_X_sub_C]
  simp only [Multiset.map_add, Multiset.map_singleton, Multiset.prod_add, Multiset.prod_singleton]
  rw [h t (by rw [pow_mul, ht, ham]), ht]

/-- one step of the tower preserves the resultant -/
theorem res_fieldNorm (k : ℕ) (f : List ℤ) (hf : f.length = 2 ^ (k + 1)) : res f = res (fieldNorm f) := by
  have hp : 2 ^ (k + 1) = 2 * 2 ^ k := by rw [pow_succ]; ring
  have hpos : 0 < 2 ^ k := Nat.two_pow_pos k
  have hl : (fieldNorm f).length = 2 ^ k := by rw [length_fieldNorm]; omega
  apply Int.cast_injective (α := ℂ)
  rw [res_prod f (by omega), res_prod (fieldNorm f) (by omega), hf, hl, hp]
  apply roots_double _ hpos
  intro r hr
  rw [← hp] at hr
  rw [ev_fieldNorm k f hf r hr]

theorem res_single (l : List ℤ) (h : l.length = 1) : res l = at' l 0 := by
  unfold res
  rw [h, resultant_zero_right_deg, pow_one, coeff_toPoly]

theorem res_nonneg (k : ℕ) (f : List ℤ) (hf : f.length = 2 ^ (k + 1)) : 0 ≤ res f := by
  induction k generalizing f with
  | zero =>
    rw [res_fieldNorm 0 f hf, res_single _ (by rw [length_fieldNorm, hf]; rfl)]
    obtain ⟨a, b, rfl⟩ : ∃ a b, f = [a, b] := by
      match f, hf with
      | [a, b], _ => exact ⟨a, b, rfl⟩
    have : at' (fieldNorm [a, b]) 0 = a * a + b * b := by
      simp [fieldNorm, karamul, karatsuba, karatsubaAux, at', addAt, List.range_succ]
    rw [this]; nlinarith [mul_self_nonneg a, mul_self_nonneg b]
  | succ k ih =>
    have hp : 2 ^ (k + 1 + 1) = 2 * 2 ^ (k + 1) := by rw [pow_succ]; ring
    rw [res_fieldNorm (k + 1) f hf]
    exact ih _ (by rw [length_fieldNorm]; omega)

/-- the floating-point part does not raise -/
def Total (K : KOracle) : Prop := ∀ f g F G, ∃ k, K f g F G = .ok k

theorem reduceLoop_total (K : KOracle) (hK : Total K) (f g : List ℤ) (size : ℕ) : ∀ (fuel : ℕ) (F G : List ℤ), ∃ o, reduceLoop K f g size fuel F G = .ok o := by
  intro fuel
  induction fuel with
  | zero => intro F G; exact ⟨none, rfl⟩
  | succ fuel ih =>
    intro F G
    simp only [reduceLoop]
    split
    · exact ⟨_, rfl⟩
    · obtain ⟨k, hk⟩ := hK f g F G
      rw [hk]
      simp only [bind, Except.bind]
      split
      · exact ⟨_, rfl⟩
      · exact ih _ _

theorem ntruSolveAux_outcome (K : KOracle) (rf : ℕ) (k : ℕ) : ∀ (fuel : ℕ) (f g : List ℤ), k < fuel → f.length = 2 ^ k → g.length = 2 ^ k →
    ((xgcd (res f) (res g)).1 ≠ 1 → ntruSolveAux K rf fuel f g = .error .valueError) ∧
    ((xgcd (res f) (res g)).1 = 1 → Total K → ∃ o, ntruSolveAux K rf fuel f g = .ok o) := by
  induction k with
  | zero =>
    intro fuel f g hk hf hg
    obtain ⟨fuel, rfl⟩ : ∃ m, fuel = m + 1 := ⟨fuel - 1, by omega⟩
    rw [pow_zero] at hf hg
    rw [res_single f hf, res_single g hg]
    simp only [ntruSolveAux, if_pos hf]
    constructor
    · intro h; rw [if_pos h]
    · intro h _; rw [if_neg (by simpa using h)]; exact ⟨_, rfl⟩
  | succ k ih =>
    intro fuel f g hk hf hg
    have hp : 2 ^ (k + 1) = 2 * 2 ^ k := by rw [pow_succ]; ring
    have hpos : 0 < 2 ^ k := Nat.two_pow_pos k
    obtain ⟨fuel, rfl⟩ : ∃ m, fuel = m + 1 := ⟨fuel - 1, by omega⟩
    rw [res_fieldNorm k f hf, res_fieldNorm k g hg]
    obtain ⟨i1, i2⟩ := ih fuel (fieldNorm f) (fieldNorm g) (by omega) (by rw [length_fieldNorm]; omega) (by rw [length_fieldNorm]; omega)
    simp only [ntruSolveAux]
    rw [if_neg (by omega)]
    constructor
    · intro h; rw [i1 h]; rfl
    · intro h hK
      obtain ⟨o, ho⟩ := i2 h hK
      rw [ho]
      simp only [bind, Except.bind]
      cases o with
      | none => exact ⟨_, rfl⟩
      | some FG => exact reduceLoop_total K hK f g _ rf _ _

/-- **C16**: for `n = 2^k ≥ 2`, `ntru_solve(f, g)` raises `ValueError` whenever the resultants of `f` and `g` with `x^n + 1` are not
coprime, whatever the floating-point part does. -/
theorem ntruSolve_fails (K : KOracle) (rf k : ℕ) (hk : 1 ≤ k) (f g : List ℤ) (hf : f.length = 2 ^ k) (hg : g.length = 2 ^ k)
    (h : Int.gcd (res f) (res g) ≠ 1) : ntruSolve K rf f g = .error .valueError := by
  obtain ⟨k, rfl⟩ : ∃ m, k = m + 1 := ⟨k - 1, by omega⟩
  apply (ntruSolveAux_outcome K rf (k + 1) f.length f g (by rw [hf]; exact Nat.lt_two_pow_self) hf hg).1
  rw [xgcd_nonneg _ _ (res_nonneg k f hf) (res_nonneg k g hg)]
  exact_mod_cast h

/-- **C16**: and it raises only then: if the resultants are coprime and the floating-point part does not raise, it does not raise. -/
theorem ntruSolve_succeeds (K : KOracle) (hK : Total K) (rf k : ℕ) (hk : 1 ≤ k) (f g : List ℤ) (hf : f.length = 2 ^ k) (hg : g.length = 2 ^ k) :
    (∃ e, ntruSolve K rf f g = .error e) ↔ Int.gcd (res f) (res g) ≠ 1 := by
  constructor
  · rintro ⟨e, he⟩ hc
    obtain ⟨k, rfl⟩ : ∃ m, k = m + 1 := ⟨k - 1, by omega⟩
    obtain ⟨o, ho⟩ := (ntruSolveAux_outcome K rf (k + 1) f.length f g (by rw [hf]; exact Nat.lt_two_pow_self) hf hg).2
      (by rw [xgcd_nonneg _ _ (res_nonneg k f hf) (res_nonneg k g hg), hc]; rfl) hK
    unfold ntruSolve at he
    rw [ho] at he; cases he
  · intro h; exact ⟨_, ntruSolve_fails K rf k hk f g hf hg h⟩

/-- Degree-one case (`n = 1`): here the sign matters, and `ntru_solve` raises also for coprime integers when `g0 < 0`
(or `g0 = 0` and `f0 = -1`), because `xgcd` then returns `-1`. -/
theorem ntruSolve_one (K : KOracle) (rf : ℕ) (f0 g0 : ℤ) :
    ntruSolve K rf [f0] [g0] = .error .valueError ↔ ¬ (Int.gcd f0 g0 = 1 ∧ (0 < g0 ∨ (g0 = 0 ∧ f0 = 1))) := by
  have key : (xgcd f0 g0).1 = 1 ↔ Int.gcd f0 g0 = 1 ∧ (0 < g0 ∨ (g0 = 0 ∧ f0 = 1)) := by
    rw [xgcd_sign]
    by_cases h0 : g0 = 0
    · subst h0
      rw [if_pos rfl, Int.gcd_zero_right]
      constructor
      · rintro rfl; exact ⟨rfl, Or.inr ⟨rfl, rfl⟩⟩
      · rintro ⟨_, h | h⟩
        · omega
        · exact h.2
    · rw [if_neg h0]
      rcases lt_or_gt_of_ne h0 with hn | hn
      · rw [Int.sign_eq_neg_one_of_neg hn]
        constructor
        · intro h; omega
        · rintro ⟨_, h | h⟩ <;> omega
      · rw [Int.sign_eq_one_of_pos hn, one_mul]
        constructor
        · intro h; exact ⟨by exact_mod_cast h, Or.inl hn⟩
        · rintro ⟨h, _⟩; rw [h]; rfl
  rw [← key]
  simp only [ntruSolve, List.length_singleton, ntruSolveAux, if_true, at', List.getD_cons_zero]
  by_cases h : (xgcd f0 g0).1 = 1
  · rw [if_neg (by simpa using h)]; simp [h]
  · rw [if_pos h]; simp [h]

example : ntruSolve (fun _ _ _ _ => .ok fun _ => 0) 3 [2, 1] [3, -1] = .error .valueError := by decide +kernel
example : Total (fun _ _ _ _ => .ok fun _ => 0) := fun _ _ _ _ => ⟨_, rfl⟩
/-- the hypothesis of `ntruSolve_fails` is met, and so is its negation -/
example : Int.gcd (res [2, 1]) (res [3, 1]) ≠ 1 ∧ Int.gcd (res [2, 1]) (res [1, 1]) = 1 := by
  rw [res_fieldNorm 0 [2, 1] rfl, res_fieldNorm 0 [3, 1] rfl, res_fieldNorm 0 [1, 1] rfl, res_single _ (by decide), res_single _ (by decide),
    res_single _ (by decide)]
  decide

end Verif.Ring
