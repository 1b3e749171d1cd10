import Verif.CRef.KgKeys
import Verif.CRef.KgPython

/-! # Concrete instances for C90, C92 and C93 -/

namespace Verif.CRef.Kg

/-- A source for which the four coefficients of degree 2 are -56, 55, -74, -25: every coefficient is the sum of 512 values of two words each. -/
def exNext (i : Nat) : Nat × Nat :=
  let c := [-56, 55, -74, -25].getD (i / 1024) (0 : Int)
  let j := i % 1024 / 2
  (if j < c.natAbs then (if i % 2 = 0 then (if c < 0 then 18446744073709551615 else 9223372036854775807) else 9223372036854775807) else 0, i + 1)

/-- A solver that leaves `F = [99, -16]` and `G = [-53, -29]` as 31-bit words. -/
def exSolver : Solver := fun _ _ => some ([99, 2147483632], [2147483595, 2147483619])

set_option maxRecDepth 100000 in
/-- Key generation returns a key of degree 2, so that the hypothesis of `C90_keygen` is met. -/
theorem exKeygen : keygen exNext exSolver [0, 0] (fun _ _ => true) 1 2 1 0 = some ([-56, 55], [-74, -25], [99, -16], [-53, -29], [1285, 7407]) := by decide +kernel

example : IsFalconKey 2 127 [-56, 55] [-74, -25] [99, -16] [-53, -29] [1285, 7407] :=
  C90_keygen exNext exSolver [0, 0] (fun _ _ => true) 1 2 (by decide) (by decide) rfl 1 0 _ _ _ _ _ exKeygen

set_option maxRecDepth 100000 in
/-- The hypotheses of `C90_round`. -/
example : ∃ st1 st2, mkgaussPoly exNext 1 2 [] 0 0 = some ([-56, 55], st1) ∧ mkgaussPoly exNext 1 2 [] 0 st1 = some ([-74, -25], st2) := ⟨2048, 4096, by decide +kernel, by decide +kernel⟩

/-- The words of the solver have 31 bits. -/
example : ∀ f g fw gw, exSolver f g = some (fw, gw) → (∀ u : ℕ, fw[u]! < 2147483648) ∧ ∀ u : ℕ, gw[u]! < 2147483648 := by
  intro f g fw gw h
  simp only [exSolver, Option.some.injEq, Prod.mk.injEq] at h
  obtain ⟨rfl, rfl⟩ := h
  constructor <;> intro u <;> rcases u with _ | _ | u <;> first | decide | simp

/-- A wrong `G` is refused. -/
example : checkNTRU 1 [0, 0] [-56, 55] [-74, -25] [99, -16] [-53, -28] = false := by decide +kernel
/-- A coefficient of 128 is refused. -/
example : bigToSmall [128, 0] 127 1 = none := by decide +kernel
/-- An even sum is refused: the last coefficient is drawn again until the sum is odd. -/
example : mkgaussPoly exNext 1 1 [-56] 0 2048 = none := by decide +kernel

/-- A seed of 31 bytes is refused. -/
example : keypairFromSeed16 exSolver [0, 0] (fun _ _ => true) 1 1 (List.replicate 31 0) = .fail := by decide +kernel

/-- Every seed of at least 32 bytes meets the hypothesis of `C92_keypair16`. -/
example : 32 ≤ (List.replicate 48 7 : Bytes).length ∧ IsBytes (List.replicate 48 7) := by constructor <;> decide

/-- Draws: 0, then -1, +2 and -26. -/
example : gauss1024 5 7 = 0 ∧ gauss1024 18446744073709551615 9223372036854775807 = -1 ∧ gauss1024 9223372036854775807 6416574995475331443 = 2 ∧ gauss1024 18446744073709551615 0 = -26 := by decide +kernel

/-- An honest source of bytes: a counter. -/
example : Sampler.Honest (fun k (s : Nat) => (List.replicate k (s % 256), s + 1)) := by
  intro k s
  refine ⟨by simp, fun b hb => ?_⟩
  rw [List.eq_of_mem_replicate hb]
  exact Nat.mod_lt _ (by norm_num)

end Verif.CRef.Kg
