import Verif.Bits
/-
Specification vocabulary for fixed-width packings: `n` fields of `w` bits, most significant bit first,
followed by zero bits up to a byte boundary.
-/
namespace Verif.Codec.Spec
open Verif

/-- number of bytes for `n` fields of `w` bits -/
def packedLen (n w : Nat) : Nat := (n * w + 7) / 8

/-- the concatenated `w`-bit fields -/
def fieldBits (w : Nat) (vs : List Nat) : List Bool := vs.flatMap (natBits w)

/-- `y` is the packing of the fields `vs` of width `w`: exactly the needed bytes, the fields' bits, zero padding. -/
def IsPacking (w : Nat) (vs : List Nat) (y : Bytes) : Prop :=
  IsBytes y ∧ y.length = packedLen vs.length w ∧ ∃ k, bytesBits y = fieldBits w vs ++ zeros k

/-- the `w`-bit two's complement field of an integer -/
def twos (w : Nat) (c : Int) : Nat := (c % 2 ^ w).toNat

/-- symmetric range `[-(2^(w-1)-1), 2^(w-1)-1]` -/
def InRange (w : Nat) (c : Int) : Prop := -(2 ^ (w - 1) - 1 : Int) ≤ c ∧ c ≤ 2 ^ (w - 1) - 1

/-- The width of the coefficients of `f` and `g` in the NIST secret key encoding, for degree `2^logn`, `logn = 1 … 10`. -/
def fgWidth (logn : Nat) : Nat := [0, 8, 8, 8, 8, 8, 7, 7, 6, 6, 5].getD logn 0

end Verif.Codec.Spec
