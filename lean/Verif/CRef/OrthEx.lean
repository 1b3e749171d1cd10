import Verif.CRef.OrthProps
import Verif.CRef.KgEx

/-! # C107 for the API, and concrete instances -/

namespace Verif.CRef.Orth

open Verif.CRef.Kg

/-- **C107** (API): the key pair that `crypto_sign_keypair` of nist16.c returns for a seed decodes to `f`, `g`, `F`, `G` whose orthogonalized vector is short. -/
theorem C107_keypair16 (solver : Solver) (mem : List ℕ) (hm : mem.length = 512) (draws fuel : ℕ) (seed pk sk : Bytes) (hs : IsBytes seed)
    (h : keypairFromSeed16 solver mem (orthTest 9) draws fuel seed = .done pk sk) :
    ∃ f g F G r1 r2, decodeSk sk = some (f, g, F, G) ∧ IsOrth 9 f g r1 r2 ∧ sqNorm 9 r1 r2 ≤ 16822.4121 + 1 / 2 ^ 15 := by
  have C := C92_keypair16 solver mem hm (orthTest 9) draws fuel seed hs
  by_cases hl : seed.length < 32
  · rw [C.1 hl] at h; cases h
  · rcases C.2 (by omega) with ⟨a, _⟩ | ⟨f, g, F, G, hh, pk', sk', a, b, _, _, _, _, _, _, d⟩
    · rw [a] at h; cases h
    · rw [a] at h
      cases h
      obtain ⟨r1, r2, I, n⟩ := C107_keygen _ solver mem 9 draws (by norm_num) (by norm_num) hm fuel 0 f g F G hh b
      exact ⟨f, g, F, G, r1, r2, d, I, n⟩

set_option maxRecDepth 100000 in
/-- Key generation with the test returns a key of degree 2. -/
theorem exKeygen : keygen exNext exSolver [0, 0] (orthTest 1) 1 2 1 0 = some ([-56, 55], [-74, -25], [99, -16], [-53, -29], [1285, 7407]) := by decide +kernel

example : ∃ r1 r2, IsOrth 1 [-56, 55] [-74, -25] r1 r2 ∧ sqNorm 1 r1 r2 ≤ 16822.4121 + 1 / 2 ^ 15 :=
  C107_keygen exNext exSolver [0, 0] 1 2 (by decide) (by decide) rfl 1 0 _ _ _ _ _ exKeygen

/-- The hypotheses of `C107_close` and `C107_sound`. -/
example : Within (2 ^ (maxFgBits[1]! - 1) - 1) [90, 1] ∧ Within (2 ^ (maxFgBits[1]! - 1) - 1) [91, 0] ∧ (∀ w : ℂ, w ^ 2 ^ 1 = -1 → (2 : ℝ) ^ 2 ≤ gramAt 1 [90, 1] [91, 0] w) := by
  refine ⟨by unfold Within; decide, by unfold Within; decide, fun w _ => ?_⟩
  have e : value 1 [91, 0] w = 91 := by simp [value, Fft.pev, Finset.sum_range_succ]
  unfold gramAt
  rw [e, show ‖(91 : ℂ)‖ = 91 by simp]
  have := sq_nonneg ‖value 1 [90, 1] w‖
  linarith

/-- A pair that passes, and one that does not: degree 2. -/
example : orthTest 1 [90, 1] [91, 0] = true ∧ orthTest 1 [3, 0] [2, 1] = false := by decide +kernel

/-- Without the NTRU equation the lower bound on `f f* + g g*` cannot be dropped: the test lets two zero polynomials through (the inverse of zero is a finite number, and zero times it is zero). -/
example : orthTest 1 [0, 0] [0, 0] = true := by decide +kernel

end Verif.CRef.Orth
