import Verif.CRef.Levels
import Verif.CRef.LiftProps

/-! # C119: from the resultants to a solution of the NTRU equation -/

namespace Verif.CRef.Kg

open Verif.NTT Verif.Ring Verif.Falcon

/-- Coefficient `i` of `f G - g F`, with the norms of `f` and `g` at depth `d`. -/
def eqAt (logn d : ℕ) (f g : List ℤ) (F G : List (List ℕ)) (i : ℕ) : ℤ :=
  negCoeff (2 ^ (logn - d)) (fieldNorm^[d] f) (G.map sbig) i - negCoeff (2 ^ (logn - d)) (fieldNorm^[d] g) (F.map sbig) i

/-- The numbers met at depth `d` fit the tables: the unreduced polynomials fit `MAX_BL_LARGE`, the result satisfies the equation with room in the words in use. -/
def FitsAt (logn d : ℕ) (f g : List ℤ) (Fd Gd F G : List (List ℕ)) : Prop :=
  (∀ z ∈ lifted (2 ^ (logn - d)) (Fd.map sbig) (fieldNorm^[d] g), 2 * |z| < (((primeList.take maxBlLarge[d]!).prod : ℕ) : ℤ)) ∧
  (∀ z ∈ lifted (2 ^ (logn - d)) (Gd.map sbig) (fieldNorm^[d] f), 2 * |z| < (((primeList.take maxBlLarge[d]!).prod : ℕ) : ℤ)) ∧
  ∀ i < 2 ^ (logn - d), 2 * |eqAt logn d f g F G i| < 2 ^ (31 * usedWords d)

theorem used_pos : ∀ d < 10, (12289 : ℤ) * 2 < 2 ^ (31 * usedWords d) := by
  intro d hd
  have h := (used_words d hd).2
  calc (12289 : ℤ) * 2 < 2 ^ (31 * 1) := by norm_num
    _ ≤ 2 ^ (31 * usedWords d) := pow_le_pow_right₀ (by norm_num) (by omega)

theorem deepest_solves (logn : ℕ) (h1 : 1 ≤ logn) (h2 : logn ≤ 10) (f g : List ℤ) (lf : f.length = 2 ^ logn) (lg : g.length = 2 ^ logn) (hf : ∀ z ∈ f, -128 ≤ z ∧ z ≤ 127) (hg : ∀ z ∈ g, -128 ≤ z ∧ z ≤ 127)
    (bf : FitsLevels logn f) (bg : FitsLevels logn g) (rf : res f < (((primeList.take maxBlSmall[logn]!).prod : ℕ) : ℤ)) (rg : res g < (((primeList.take maxBlSmall[logn]!).prod : ℕ) : ℤ)) (rg1 : 1 < res g)
    (sf : 2 * (12289 * res f) ≤ 2 ^ (31 * maxBlSmall[logn]!)) (sg : 2 * (12289 * res g) ≤ 2 ^ (31 * maxBlSmall[logn]!))
    (F G : List ℕ) (run : solveDeepest logn f g = some (F, G)) :
    Rows (2 ^ (logn - logn)) maxBlSmall[logn]! [F] ∧ Rows (2 ^ (logn - logn)) maxBlSmall[logn]! [G] ∧ ∀ i < 2 ^ (logn - logn), eqAt logn logn f g [F] [G] i = if i = 0 then 12289 else 0 := by
  obtain ⟨e, bG, bF, lF, lG, wF, wG⟩ := C115_deepest logn h1 h2 f g lf lg hf hg bf bg rf rg rg1 F G run
  unfold eqAt
  rw [Nat.sub_self, pow_zero, deepest_norm logn f lf, deepest_norm logn g lg]
  have one : ∀ (l : List ℕ) (i : ℕ), i < 1 → ([l] : List (List ℕ))[i]! = l := by
    intro l i hi
    obtain rfl : i = 0 := by omega
    rfl
  refine ⟨⟨rfl, fun i hi => by rw [one F i hi]; exact ⟨lF, wF⟩⟩, ⟨rfl, fun i hi => by rw [one G i hi]; exact ⟨lG, wG⟩⟩, fun i hi => ?_⟩
  obtain rfl : i = 0 := by omega
  have hp : (2 : ℤ) ^ (31 * maxBlSmall[logn]!) = ((2147483648 ^ maxBlSmall[logn]! : ℕ) : ℤ) := by rw [← pow31]; push_cast; rfl
  rw [hp] at sf sg
  have sF : sbig F = big F := by
    rw [sbig_eq, if_pos]
    rw [lF]
    generalize (2147483648 ^ maxBlSmall[logn]! : ℕ) = B at *
    omega
  have sG : sbig G = big G := by
    rw [sbig_eq, if_pos]
    rw [lG]
    generalize (2147483648 ^ maxBlSmall[logn]! : ℕ) = B at *
    omega
  have m : ∀ a b : ℤ, negCoeff 1 [a] [b] 0 = a * b := by
    intro a b
    unfold negCoeff
    simp
  show negCoeff 1 [res f] [sbig G] 0 - negCoeff 1 [res g] [sbig F] 0 = 12289
  rw [m, m, sF, sG]
  exact e

/-- **C119**: the deepest level and `s` intermediate ones give a solution of the NTRU equation for the norms of `f` and `g` at depth `logn - s`. -/
theorem C119_levels (logn : ℕ) (h1 : 1 ≤ logn) (h2 : logn ≤ 10) (f g : List ℤ) (lf : f.length = 2 ^ logn) (lg : g.length = 2 ^ logn) (hf : ∀ z ∈ f, -128 ≤ z ∧ z ≤ 127) (hg : ∀ z ∈ g, -128 ≤ z ∧ z ≤ 127)
    (bf : FitsLevels logn f) (bg : FitsLevels logn g) (rf : res f < (((primeList.take maxBlSmall[logn]!).prod : ℕ) : ℤ)) (rg : res g < (((primeList.take maxBlSmall[logn]!).prod : ℕ) : ℤ)) (rg1 : 1 < res g)
    (sf : 2 * (12289 * res f) ≤ 2 ^ (31 * maxBlSmall[logn]!)) (sg : 2 * (12289 * res g) ≤ 2 ^ (31 * maxBlSmall[logn]!)) (mult : ℕ → List (List ℕ) → List (List ℕ) → ReduceSt → ℕ → Option (List ℤ))
    (hm : ∀ d < logn, ∀ fs gs, fs.map sbig = fieldNorm^[d] f → gs.map sbig = fieldNorm^[d] g → GoodMult d (logn - d) fs gs (mult d fs gs)) : ∀ s ≤ logn,
    (∀ t < s, ∀ Fd Gd F G, solveLevels logn f g mult t = some (Fd, Gd) → solveLevels logn f g mult (t + 1) = some (F, G) → FitsAt logn (logn - (t + 1)) f g Fd Gd F G) → ∀ F G, solveLevels logn f g mult s = some (F, G) →
      Rows (2 ^ (logn - (logn - s))) maxBlSmall[logn - s]! F ∧ Rows (2 ^ (logn - (logn - s))) maxBlSmall[logn - s]! G ∧ ∀ i < 2 ^ (logn - (logn - s)), eqAt logn (logn - s) f g F G i = if i = 0 then 12289 else 0
  | 0, _, _, F, G, run => by
    unfold solveLevels at run
    cases hd : solveDeepest logn f g with
    | none => rw [hd] at run; cases run
    | some FG =>
      rw [hd] at run
      obtain ⟨F0, G0⟩ := FG
      simp only [Option.some.injEq, Prod.mk.injEq] at run
      obtain ⟨rfl, rfl⟩ := run
      exact deepest_solves logn h1 h2 f g lf lg hf hg bf bg rf rg rg1 sf sg F0 G0 hd
  | s + 1, hs, fits, F, G, run => by
    cases hd : solveLevels logn f g mult s with
    | none => unfold solveLevels at run; rw [hd] at run; cases run
    | some FG =>
      obtain ⟨Fd, Gd⟩ := FG
      obtain ⟨i1, i2, i3⟩ := C119_levels logn h1 h2 f g lf lg hf hg bf bg rf rg rg1 sf sg mult hm s (by omega) (fun t ht => fits t (by omega)) Fd Gd hd
      obtain ⟨t1, t2, t3⟩ := fits s (by omega) Fd Gd F G hd run
      unfold solveLevels at run
      rw [hd] at run
      dsimp only at run
      have hdl : logn - s = logn - (s + 1) + 1 := by omega
      have hdn : logn - (logn - s) = logn - (logn - (s + 1)) - 1 := by omega
      unfold eqAt at i3
      rw [hdn, hdl] at i1 i2 i3
      obtain ⟨r1, r2, r3⟩ := C118_intermediate logn (logn - (s + 1)) (by omega) h2 f g lf lg hf hg (fun d h => bf d (by omega)) (fun d h => bg d (by omega)) Fd Gd i1 i2 12289 i3 t1 t2 _
        (hm (logn - (s + 1)) (by omega)) F G run
      refine ⟨r1, r2, fun i hi => ?_⟩
      exact C118_exact _ (usedWords (logn - (s + 1))) _ _ _ _ 12289 (by have := used_pos (logn - (s + 1)) (by omega); rw [abs_of_pos (by norm_num)]; linarith) r3 t3 i hi

/-- With all `logn` levels, as the code does for degrees 2 and 4, the result solves the NTRU equation for `f` and `g` themselves. -/
theorem C119_all (logn : ℕ) (h1 : 1 ≤ logn) (h2 : logn ≤ 10) (f g : List ℤ) (lf : f.length = 2 ^ logn) (lg : g.length = 2 ^ logn) (hf : ∀ z ∈ f, -128 ≤ z ∧ z ≤ 127) (hg : ∀ z ∈ g, -128 ≤ z ∧ z ≤ 127)
    (bf : FitsLevels logn f) (bg : FitsLevels logn g) (rf : res f < (((primeList.take maxBlSmall[logn]!).prod : ℕ) : ℤ)) (rg : res g < (((primeList.take maxBlSmall[logn]!).prod : ℕ) : ℤ)) (rg1 : 1 < res g)
    (sf : 2 * (12289 * res f) ≤ 2 ^ (31 * maxBlSmall[logn]!)) (sg : 2 * (12289 * res g) ≤ 2 ^ (31 * maxBlSmall[logn]!)) (mult : ℕ → List (List ℕ) → List (List ℕ) → ReduceSt → ℕ → Option (List ℤ))
    (hm : ∀ d < logn, ∀ fs gs, fs.map sbig = fieldNorm^[d] f → gs.map sbig = fieldNorm^[d] g → GoodMult d (logn - d) fs gs (mult d fs gs))
    (fits : ∀ t < logn, ∀ Fd Gd F G, solveLevels logn f g mult t = some (Fd, Gd) → solveLevels logn f g mult (t + 1) = some (F, G) → FitsAt logn (logn - (t + 1)) f g Fd Gd F G)
    (F G : List (List ℕ)) (run : solveLevels logn f g mult logn = some (F, G)) (i : ℕ) (hi : i < 2 ^ logn) :
    negCoeff (2 ^ logn) f (G.map sbig) i - negCoeff (2 ^ logn) g (F.map sbig) i = if i = 0 then 12289 else 0 := by
  have h := (C119_levels logn h1 h2 f g lf lg hf hg bf bg rf rg rg1 sf sg mult hm logn le_rfl fits F G run).2.2
  unfold eqAt at h
  rw [Nat.sub_self, Nat.sub_zero] at h
  exact h i hi

/-! A concrete case: the private key of C108, solved from the resultants 6161 and 6101. -/

def exLv : ℕ → List (List ℕ) → List (List ℕ) → ReduceSt → ℕ → Option (List ℤ) := fun _ _ _ _ s => if s = 0 then some [21477465, 10390439] else some [0, 0]

theorem exLv_run : solveLevels 1 [-56, 55] [-74, -25] exLv 0 = some ([[23975839]], [[23742348]]) ∧
    solveLevels 1 [-56, 55] [-74, -25] exLv 1 = some ([[99], [2147483632]], [[2147483595], [2147483619]]) := by
  constructor <;> decide +kernel

example : FitsLevels 1 [-56, 55] ∧ FitsLevels 1 [-74, -25] ∧ res [-56, 55] = 6161 ∧ res [-74, -25] = 6101 ∧ 2 * (12289 * 6161) ≤ 2 ^ (31 * maxBlSmall[1]!) ∧
    (∀ d < 1, ∀ fs gs, fs.map sbig = fieldNorm^[d] [-56, 55] → gs.map sbig = fieldNorm^[d] [-74, -25] → GoodMult d (1 - d) fs gs (exLv d fs gs)) ∧
    ∀ t < 1, ∀ Fd Gd F G, solveLevels 1 [-56, 55] [-74, -25] exLv t = some (Fd, Gd) → solveLevels 1 [-56, 55] [-74, -25] exLv (t + 1) = some (F, G) → FitsAt 1 (1 - (t + 1)) [-56, 55] [-74, -25] Fd Gd F G := by
  refine ⟨by unfold FitsLevels; decide +kernel, by unfold FitsLevels; decide +kernel, by
    have := deepest_norm 1 [-56, 55] rfl
    rw [show fieldNorm^[1] ([-56, 55] : List ℤ) = [6161] by decide +kernel] at this
    exact (List.cons.inj this).1.symm, by
    have := deepest_norm 1 [-74, -25] rfl
    rw [show fieldNorm^[1] ([-74, -25] : List ℤ) = [6101] by decide +kernel] at this
    exact (List.cons.inj this).1.symm, by decide +kernel, ?_, ?_⟩
  · intro d hd fs gs ef eg st s k h
    obtain rfl : d = 0 := by omega
    rw [ef, eg]
    unfold exLv at h
    split at h
    · obtain rfl := (Option.some.inj h).symm
      decide +kernel
    · obtain rfl := (Option.some.inj h).symm
      decide +kernel
  · intro t ht Fd Gd F G e1 e2
    obtain rfl : t = 0 := by omega
    rw [exLv_run.1] at e1
    rw [exLv_run.2] at e2
    simp only [Option.some.injEq, Prod.mk.injEq] at e1 e2
    obtain ⟨rfl, rfl⟩ := e1
    obtain ⟨rfl, rfl⟩ := e2
    unfold FitsAt eqAt
    refine ⟨by decide +kernel, by decide +kernel, by decide +kernel⟩

end Verif.CRef.Kg
