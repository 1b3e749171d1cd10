import Verif.Contract.Spec
import Verif.Contract.Model
import Verif.Keccak.Spec
import Mathlib.Algebra.BigOperators.Group.Finset.Defs

/-! # Specification for key recovery, independent of the model -/

namespace Verif.Epervier

open Verif Verif.NTT Verif.Ring

/-- The signed value the contract gives to a 16-bit field: above 6144 it stands for `x - 12289`. -/
def signed (x : ℕ) : ℤ := if x > 6144 then (x : ℤ) - 12289 else x

/-- What the contract subtracts for a field of `s1`: the field itself, except above 12289, where a wrapped subtraction takes off `2^256`. -/
def wrapped (x : ℕ) : ℤ := if x > 12289 then (x : ℤ) - 2 ^ 256 else x

/-- Low 160 bits of the Keccak-256 hash of the values written as 32-byte words. -/
def address (t : List ℕ) : ℕ := Hash.Sol.word (Keccak.Spec.spongeOut Keccak.Spec.F 136 0x01 (t.flatMap Contract.wordBytes) 0 32) % 2 ^ 160

/-- The value of a polynomial, given by 512 words, at the `i`-th evaluation point. -/
noncomputable def value (a : List ℕ) (i : ℕ) : ZMod 12289 := (toPoly (toZ 12289 a)).eval (root i)

/-- `h * s2 = c - s1` in `Z_q[x]/(x^512+1)`. -/
def Equation (h s2 c : List ℕ) (s1 : List ℤ) : Prop :=
  negMul 512 (toZ 12289 h) (toZ 12289 s2) = List.zipWith (· - ·) (toZ 12289 c) (Falcon.zq s1)

end Verif.Epervier
