import Verif.Falcon.Spec
import Verif.NTT.Spec

/-! # Specification for the on-chain verifiers, independent of the model -/

namespace Verif.Contract

open Verif

/-- The representative of a residue modulo 12289 in `[-6144, 6144]`, coefficientwise. -/
def centred (a : List ℕ) : List ℤ := List.map (fun x : ℕ => Int.bmod x 12289) a

/-- The centred difference of two vectors modulo 12289. -/
def diff (c p : List ℕ) : List ℤ := List.zipWith (fun x y : ℕ => Int.bmod ((x : ℤ) - y) 12289) c p

/-- The 512 sixteen-bit fields of 32 packed words. -/
def fields (ws : List ℕ) : List ℕ := (List.range 512).map fun i => ws.getD (i / 16) 0 / 2 ^ (16 * (i % 16)) % 65536

/-- The packed key words hold the transform of `h`: modulo 12289, their fields are the values of `h` at the evaluation points. -/
def HoldsKey (ntth h : List ℕ) : Prop := NTT.Poly512 h ∧ NTT.IsTransform h ((fields ntth).map (· % 12289))

end Verif.Contract
