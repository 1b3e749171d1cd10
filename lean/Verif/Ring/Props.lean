import Verif.Ring.Quot
import Verif.Ring.Arith

/-! # Properties C15, C17, C18, C21: exact arithmetic of the NTRU solver -/

namespace Verif.Ring

open Polynomial Finset

variable {R : Type} [CommRing R]

/-- **C17**: for lists of length `n = 2^k`, `karamul` is the schoolbook product modulo `x^n + 1`. -/
theorem karamul_eq_schoolbook (k : ℕ) (a b : List R) (ha : a.length = 2 ^ k) (hb : b.length = 2 ^ k) :
    karamul a b = negMul (2 ^ k) a b := by
  apply list_eq_of_ev (2 ^ k) (Nat.two_pow_pos k) _ _ (by simp [ha]) (by simp)
  rw [ev_karamul k a b ha hb _ (rt_pow _), ev_negMul _ _ (rt_pow _) a b ha hb]

/-- **C17**, in terms of polynomials: `karamul(a, b) = a b` in `R[x]/(x^n+1)`. -/
theorem karamul_negEq (k : ℕ) (a b : List R) (ha : a.length = 2 ^ k) (hb : b.length = 2 ^ k) :
    NegEq (2 ^ k) (toPoly (karamul a b)) (toPoly a * toPoly b) := by
  rw [negEq_iff, map_mul, aeval_toPoly, aeval_toPoly, aeval_toPoly, ev_karamul k a b ha hb _ (rt_pow _)]

/-- `karatsuba` (before reduction) is the exact polynomial product, on `2 n` coefficients. -/
theorem karatsuba_eq_mul (k : ℕ) (a b : List R) (ha : a.length = 2 ^ k) (hb : b.length = 2 ^ k) :
    (karatsuba a b (2 ^ k)).length = 2 * 2 ^ k ∧ toPoly (karatsuba a b (2 ^ k)) = toPoly a * toPoly b := by
  obtain ⟨h1, h2⟩ := karatsuba_spec k a b ha hb
  refine ⟨h1, ?_⟩
  have := h2 (X : R[X])
  rw [← aeval_toPoly, ← aeval_toPoly, ← aeval_toPoly] at this
  simpa using this

/-- `karamul` is commutative and associative on lists of a power-of-two length. -/
theorem karamul_comm (k : ℕ) (a b : List R) (ha : a.length = 2 ^ k) (hb : b.length = 2 ^ k) : karamul a b = karamul b a := by
  apply list_eq_of_ev (2 ^ k) (Nat.two_pow_pos k) _ _ (by simp [ha]) (by simp [hb])
  rw [ev_karamul k a b ha hb _ (rt_pow _), ev_karamul k b a hb ha _ (rt_pow _), mul_comm]

theorem karamul_assoc (k : ℕ) (a b c : List R) (ha : a.length = 2 ^ k) (hb : b.length = 2 ^ k) (hc : c.length = 2 ^ k) :
    karamul (karamul a b) c = karamul a (karamul b c) := by
  apply list_eq_of_ev (2 ^ k) (Nat.two_pow_pos k) _ _ (by simp [ha]) (by simp [ha])
  rw [ev_karamul k _ c (by simp [ha]) hc _ (rt_pow _), ev_karamul k a b ha hb _ (rt_pow _),
    ev_karamul k a _ ha (by simp [hb]) _ (rt_pow _), ev_karamul k b c hb hc _ (rt_pow _), mul_assoc]

example : karamul [1, 2, 3, 4] [5, 6, 7, (8 : ℤ)] = [-56, -36, 2, 60] := by decide
example : negMul 4 [1, 2, 3, 4] [5, 6, 7, (8 : ℤ)] = [-56, -36, 2, 60] := by decide

/-- **C18**: `galois_conjugate(a)` is `a(-x)`. -/
theorem galois_eq (a : List R) : toPoly (galoisConjugate a) = (toPoly a).comp (-X) := by
  have := ev_galois a (X : R[X])
  rw [← aeval_toPoly, ← aeval_toPoly] at this
  simpa [Polynomial.comp, aeval_def] using this

/-- **C18**: `lift(a)(x) = a(x^2)`, on twice as many coefficients. -/
theorem lift_eq (a : List R) : (lift a).length = 2 * a.length ∧ toPoly (lift a) = (toPoly a).comp (X ^ 2) := by
  refine ⟨length_lift a, ?_⟩
  have := ev_lift a (X : R[X])
  rw [← aeval_toPoly, ← aeval_toPoly] at this
  simpa [Polynomial.comp, aeval_def] using this

/-- **C18**: `field_norm(a)(x^2) = a(x) a(-x)` in `R[x]/(x^n+1)`, for `n = 2^(k+1)`, on half as many coefficients. -/
theorem fieldNorm_negEq (k : ℕ) (a : List R) (ha : a.length = 2 ^ (k + 1)) :
    (fieldNorm a).length = 2 ^ k ∧
    NegEq (2 ^ (k + 1)) ((toPoly (fieldNorm a)).comp (X ^ 2)) (toPoly a * (toPoly a).comp (-X)) := by
  constructor
  · rw [length_fieldNorm, ha, pow_succ]; omega
  · rw [negEq_iff, map_mul, aeval_comp, aeval_comp, map_neg, map_pow, aeval_X, aeval_toPoly, aeval_toPoly, aeval_toPoly,
      ev_fieldNorm k a ha _ (rt_pow _)]

/-- **C18**: the congruence of `fieldNorm_negEq` determines the list: nothing else of that length satisfies it. -/
theorem fieldNorm_unique (k : ℕ) (a N : List R) (ha : a.length = 2 ^ (k + 1)) (hN : N.length = 2 ^ k)
    (h : NegEq (2 ^ (k + 1)) ((toPoly N).comp (X ^ 2)) (toPoly a * (toPoly a).comp (-X))) : N = fieldNorm a := by
  obtain ⟨h1, h2⟩ := fieldNorm_negEq k a ha
  have hl : lift N = lift (fieldNorm a) := by
    have hp : 2 ^ (k + 1) = 2 * 2 ^ k := by rw [pow_succ]; ring
    apply list_eq_of_negEq (2 ^ (k + 1)) (Nat.two_pow_pos _) _ _ (by rw [length_lift, hN, hp]) (by rw [length_lift, h1, hp])
    rw [(lift_eq N).2, (lift_eq _).2]
    rw [negEq_iff] at h h2 ⊢
    rw [h, h2]
  apply List.ext_getElem (by omega)
  intro i hi hi'
  have e : at' (lift N) (2 * i) = at' (lift (fieldNorm a)) (2 * i) := by rw [hl]
  rw [at'_lift, at'_lift, if_pos (by omega), if_pos (by omega), show 2 * i / 2 = i by omega] at e
  rwa [at'_lt _ _ hi, at'_lt _ _ hi'] at e

/-- **C18**: `field_norm` is multiplicative. -/
theorem fieldNorm_mul (k : ℕ) (a b : List R) (ha : a.length = 2 ^ (k + 1)) (hb : b.length = 2 ^ (k + 1)) :
    fieldNorm (karamul a b) = karamul (fieldNorm a) (fieldNorm b) := by
  have la := (fieldNorm_negEq k a ha).1
  have lb := (fieldNorm_negEq k b hb).1
  symm
  apply fieldNorm_unique k (karamul a b) _ (by simp [ha]) (by rw [length_karamul, la])
  have hp : 2 ^ (k + 1) = 2 * 2 ^ k := by rw [pow_succ]; ring
  have hr2 : (-rt R (2 ^ (k + 1))) ^ 2 ^ (k + 1) = -1 := by
    rw [Even.neg_pow ⟨2 ^ k, by omega⟩, rt_pow]
  rw [negEq_iff, map_mul, aeval_comp, aeval_comp, map_neg, map_pow, aeval_X, aeval_toPoly, aeval_toPoly, aeval_toPoly,
    ev_karamul k _ _ la lb _ (by rw [← pow_mul, ← hp, rt_pow]), ev_karamul (k + 1) a b ha hb _ (rt_pow _),
    ev_karamul (k + 1) a b ha hb _ hr2, ev_fieldNorm k a ha _ (rt_pow _), ev_fieldNorm k b hb _ (rt_pow _)]
  ring

example : fieldNorm [1, 2, 3, (4 : ℤ)] = [8, 18] := by decide
example : lift [8, (18 : ℤ)] = [8, 0, 18, 0] := by decide
example : galoisConjugate [1, 2, 3, (4 : ℤ)] = [1, -2, 3, -4] := by decide

/-! ## Babai reduction -/

theorem subLoop (r : ℤ) (c : ℤ) (v : List ℤ) (n : ℕ) (F : List ℤ) (hF : F.length = n) :
    ((List.range n).foldl (fun F i => addAt F i (-(at' v i * c))) F).length = n := by
  rw [(addAt_loop r (fun i => i) (fun i => -(at' v i * c)) n F (by intro i hi; omega)).1, hF]

theorem ev_subLoop {A : Type} [CommRing A] [Algebra ℤ A] (r : A) (c : ℤ) (v : List ℤ) (n : ℕ) (F : List ℤ) (hF : F.length = n) (hv : v.length = n) :
    ev r ((List.range n).foldl (fun F i => addAt F i (-(at' v i * c))) F) = ev r F - (c : A) * ev r v := by
  rw [(addAt_loop r (fun i => i) (fun i => -(at' v i * c)) n F (by intro i hi; omega)).2, ev_ge r v n (by omega), mul_sum,
    sub_eq_add_neg, ← sum_neg_distrib]
  congr 1
  apply sum_congr rfl
  intro i _
  rw [map_neg, map_mul]
  simp; ring

theorem reduceLoop_spec (K : KOracle) (k : ℕ) (f g : List ℤ) (hf : f.length = 2 ^ k) (hg : g.length = 2 ^ k) (size : ℕ) :
    ∀ (fuel : ℕ) (F G F' G' : List ℤ), F.length = 2 ^ k → G.length = 2 ^ k →
    reduceLoop K f g size fuel F G = .ok (some (F', G')) →
    F'.length = 2 ^ k ∧ G'.length = 2 ^ k ∧ ∃ κ : ℤ[X], ∀ {A : Type} [CommRing A] [Algebra ℤ A] (r : A), r ^ 2 ^ k = -1 →
      ev r F' = ev r F - aeval r κ * ev r f ∧ ev r G' = ev r G - aeval r κ * ev r g := by
  intro fuel
  induction fuel with
  | zero => intro F G F' G' _ _ h; simp [reduceLoop] at h
  | succ fuel ih =>
    intro F G F' G' hF hG h
    simp only [reduceLoop] at h
    split at h
    · cases h; exact ⟨hF, hG, 0, fun r _ => by simp⟩
    · cases hK : K f g F G with
      | error e => rw [hK] at h; cases h
      | ok kf =>
        rw [hK] at h
        simp only [bind, Except.bind] at h
        split at h
        · cases h; exact ⟨hF, hG, 0, fun r _ => by simp⟩
        · rw [hf] at h
          set kl := (List.range (2 ^ k)).map kf with hkl
          have lk : kl.length = 2 ^ k := by simp [hkl]
          set c : ℤ := 2 ^ (sizeOf2 F G - size) with hc
          obtain ⟨h1, h2, κ, h3⟩ := ih _ _ _ _ (subLoop 0 c (karamul f kl) _ F hF) (subLoop 0 c (karamul g kl) _ G hG) h
          refine ⟨h1, h2, κ + C c * toPoly kl, fun r hr => ?_⟩
          obtain ⟨e1, e2⟩ := h3 r hr
          rw [ev_subLoop r c _ _ F hF (by simp [hf]), ev_karamul k f kl hf lk r hr] at e1
          rw [ev_subLoop r c _ _ G hG (by simp [hg]), ev_karamul k g kl hg lk r hr] at e2
          rw [e1, e2, map_add, map_mul, aeval_toPoly, aeval_C]
          constructor
          · simp; ring
          · simp; ring

/-- **C21**: whatever the floating-point quotient oracle does, when `reduce` returns `(F', G')` there is one integer polynomial `κ` with
`F' = F - κ f` and `G' = G - κ g` in `Z[x]/(x^n+1)`, and the lengths are unchanged. -/
theorem reduce_lattice (K : KOracle) (fuel k : ℕ) (f g F G F' G' : List ℤ) (hf : f.length = 2 ^ k) (hg : g.length = 2 ^ k)
    (hF : F.length = 2 ^ k) (hG : G.length = 2 ^ k) (h : reduce K fuel f g F G = .ok (some (F', G'))) :
    F'.length = 2 ^ k ∧ G'.length = 2 ^ k ∧ ∃ κ : ℤ[X],
      NegEq (2 ^ k) (toPoly F') (toPoly F - κ * toPoly f) ∧ NegEq (2 ^ k) (toPoly G') (toPoly G - κ * toPoly g) := by
  obtain ⟨h1, h2, κ, h3⟩ := reduceLoop_spec K k f g hf hg _ fuel F G F' G' hF hG h
  obtain ⟨e1, e2⟩ := h3 (rt ℤ (2 ^ k)) (rt_pow _)
  refine ⟨h1, h2, κ, ?_, ?_⟩
  · rw [negEq_iff, map_sub, map_mul, aeval_toPoly, aeval_toPoly, aeval_toPoly, e1]
  · rw [negEq_iff, map_sub, map_mul, aeval_toPoly, aeval_toPoly, aeval_toPoly, e2]

/-- **C21**: `f G - g F` is unchanged by `reduce`. -/
theorem reduce_invariant (K : KOracle) (fuel k : ℕ) (f g F G F' G' : List ℤ) (hf : f.length = 2 ^ k) (hg : g.length = 2 ^ k)
    (hF : F.length = 2 ^ k) (hG : G.length = 2 ^ k) (h : reduce K fuel f g F G = .ok (some (F', G'))) :
    NegEq (2 ^ k) (toPoly f * toPoly G' - toPoly g * toPoly F') (toPoly f * toPoly G - toPoly g * toPoly F) := by
  obtain ⟨_, _, κ, e1, e2⟩ := reduce_lattice K fuel k f g F G F' G' hf hg hF hG h
  rw [negEq_iff] at e1 e2 ⊢
  simp only [map_sub, map_mul] at e1 e2 ⊢
  rw [e1, e2]; ring

/-- a run of `reduce` in which the oracle says "subtract once, then stop" -/
example : reduce (fun _ _ F _ => .ok fun i => if i = 0 ∧ F.getD 0 0 = 17 then 2 else 0) 5 [5, 1] [3, 2] [17, 4] [9, 9]
    = .ok (some ([7, 2], [3, 5])) := by decide +kernel

/-! ## The solver -/

theorem ntruSolveAux_spec (K : KOracle) (rf : ℕ) (k : ℕ) : ∀ (fuel : ℕ) (f g F G : List ℤ), f.length = 2 ^ k → g.length = 2 ^ k →
    ntruSolveAux K rf fuel f g = .ok (some (F, G)) →
    F.length = 2 ^ k ∧ G.length = 2 ^ k ∧ ∀ {A : Type} [CommRing A] [Algebra ℤ A] (r : A), r ^ 2 ^ k = -1 →
      ev r f * ev r G - ev r g * ev r F = 12289 := by
  induction k with
  | zero =>
    intro fuel f g F G hf hg h
    cases fuel with
    | zero => simp [ntruSolveAux] at h
    | succ fuel =>
      simp only [ntruSolveAux] at h
      rw [if_pos (by simpa using hf)] at h
      obtain ⟨d, u, v, hx⟩ : ∃ d u v, xgcd (at' f 0) (at' g 0) = (d, u, v) := ⟨_, _, _, rfl⟩
      rw [hx] at h
      simp only at h
      split at h
      · cases h
      · rename_i hd
        have hd : d = 1 := by simpa using hd
        cases h
        obtain ⟨hb, _⟩ := xgcd_spec _ _ _ _ _ hx
        refine ⟨rfl, rfl, fun {A} _ _ r _ => ?_⟩
        simp only [pow_zero] at hf hg
        unfold ev
        rw [hf, hg]
        simp only [List.length_cons, List.length_nil, zero_add, sum_range_one, pow_zero, mul_one]
        rw [← map_mul, ← map_mul, ← map_sub]
        have : at' f 0 * at' [12289 * u] 0 - at' g 0 * at' [-12289 * v] 0 = 12289 := by
          simp only [at', List.getD_cons_zero] at hb ⊢
          rw [hd] at hb; linear_combination (-12289) * hb
        rw [this]; simp
  | succ k ih =>
    intro fuel f g F G hf hg h
    have hp : 2 ^ (k + 1) = 2 * 2 ^ k := by rw [pow_succ]; ring
    have hpos : 0 < 2 ^ k := Nat.two_pow_pos k
    cases fuel with
    | zero => simp [ntruSolveAux] at h
    | succ fuel =>
      simp only [ntruSolveAux] at h
      rw [if_neg (by omega)] at h
      cases hrec : ntruSolveAux K rf fuel (fieldNorm f) (fieldNorm g) with
      | error e => rw [hrec] at h; cases h
      | ok o =>
        rw [hrec] at h
        cases o with
        | none => cases h
        | some FG =>
          obtain ⟨Fp, Gp⟩ := FG
          simp only [bind, Except.bind] at h
          obtain ⟨lF, lG, hev⟩ := ih fuel _ _ _ _ (by rw [length_fieldNorm]; omega) (by rw [length_fieldNorm]; omega) hrec
          have lF2 : (lift Fp).length = 2 ^ (k + 1) := by rw [length_lift, lF, hp]
          have lG2 : (lift Gp).length = 2 ^ (k + 1) := by rw [length_lift, lG, hp]
          obtain ⟨r1, r2, κ, r3⟩ := reduceLoop_spec K (k + 1) f g hf hg _ rf _ _ F G (by rw [length_karamul, lF2]) (by rw [length_karamul, lG2]) h
          refine ⟨r1, r2, fun {A} _ _ r hr => ?_⟩
          obtain ⟨e1, e2⟩ := r3 r hr
          rw [ev_karamul (k + 1) _ _ lF2 (by rw [length_galois, hg]) r hr, ev_lift, ev_galois] at e1
          rw [ev_karamul (k + 1) _ _ lG2 (by rw [length_galois, hf]) r hr, ev_lift, ev_galois] at e2
          have hs := hev (r ^ 2) (by rw [← pow_mul, ← hp, hr])
          rw [ev_fieldNorm k f hf r hr, ev_fieldNorm k g hg r hr] at hs
          rw [e1, e2]
          linear_combination hs

/-- **C15**: if `ntru_solve(f, g)` returns `(F, G)` for lists of length `n = 2^k`, then `f G - g F = q` in `Z[x]/(x^n+1)`,
and `F`, `G` have `n` coefficients — for every behaviour of the floating-point quotient in the Babai reductions. -/
theorem ntruSolve_correct (K : KOracle) (rf k : ℕ) (f g F G : List ℤ) (hf : f.length = 2 ^ k) (hg : g.length = 2 ^ k)
    (h : ntruSolve K rf f g = .ok (some (F, G))) :
    F.length = 2 ^ k ∧ G.length = 2 ^ k ∧ NegEq (2 ^ k) (toPoly f * toPoly G - toPoly g * toPoly F) (C 12289) := by
  obtain ⟨h1, h2, h3⟩ := ntruSolveAux_spec K rf k _ f g F G hf hg h
  refine ⟨h1, h2, ?_⟩
  rw [negEq_iff, map_sub, map_mul, map_mul, aeval_toPoly, aeval_toPoly, aeval_toPoly, aeval_toPoly, h3 _ (rt_pow _), aeval_C]
  simp

/-- **C15** in coefficients: the schoolbook products satisfy `f G - g F = (q, 0, …, 0)`. -/
theorem ntruSolve_coeffs (K : KOracle) (rf k : ℕ) (f g F G : List ℤ) (hf : f.length = 2 ^ k) (hg : g.length = 2 ^ k)
    (h : ntruSolve K rf f g = .ok (some (F, G))) (i : ℕ) (hi : i < 2 ^ k) :
    negCoeff (2 ^ k) f G i - negCoeff (2 ^ k) g F i = if i = 0 then 12289 else 0 := by
  obtain ⟨h1, h2, h3⟩ := ntruSolveAux_spec K rf k _ f g F G hf hg h
  have hpos : 0 < 2 ^ k := Nat.two_pow_pos k
  have key : (List.range (2 ^ k)).map (fun i => negCoeff (2 ^ k) f G i - negCoeff (2 ^ k) g F i) =
      (List.range (2 ^ k)).map (fun i => if i = 0 then 12289 else 0) := by
    apply list_eq_of_ev (2 ^ k) hpos _ _ (by simp) (by simp)
    have e1 := ev_negMul (rt ℤ (2 ^ k)) _ (rt_pow _) f G hf h2
    have e2 := ev_negMul (rt ℤ (2 ^ k)) _ (rt_pow _) g F hg h1
    unfold negMul at e1 e2
    rw [ev_map_range] at e1 e2 ⊢
    rw [ev_map_range]
    have := h3 (rt ℤ (2 ^ k)) (rt_pow _)
    rw [← e1, ← e2, ← sum_sub_distrib] at this
    simp only [map_sub, sub_mul]
    rw [this, sum_eq_single 0]
    · simp
    · intro b _ hb; simp [hb]
    · intro h; exact absurd (by simp) h
  have := (List.map_inj_left.1 key) i (by simpa using hi)
  exact this

/-- the solver on a concrete pair of length 4 (oracle: never reduce) -/
example : ntruSolve (fun _ _ _ _ => .ok fun _ => 0) 3 [1, 1, 0, 0] [1, 0, 1, 1] =
    .ok (some ([-36867, 36867, 36867, 0], [-49156, 49156, -49156, 49156])) := by decide +kernel

end Verif.Ring
