import Verif.Bits
/-
Specification of the Falcon signature compression, independent of the code model:
a coefficient is written as a sign bit, the 7 low bits of its absolute value (most significant
first), then the remaining high part `|c| / 128` in unary (that many 0s followed by a 1).
-/
namespace Verif.Encoding.Spec
open Verif

/-- code word of one coefficient -/
def codeword (c : Int) : List Bool :=
  decide (c < 0) :: natBits 7 (c.natAbs % 128) ++ List.replicate (c.natAbs / 128) false ++ [true]

/-- concatenated code words -/
def code : List Int → List Bool
  | [] => []
  | c :: v => codeword c ++ code v

/-- number of bits needed -/
def codeLength : List Int → Nat
  | [] => 0
  | c :: v => 9 + c.natAbs / 128 + codeLength v

/-- `x` is the bit string `u` followed by zero bits only -/
def ZeroPadded (x : Bytes) (u : List Bool) : Prop := ∃ k, bytesBits x = u ++ zeros k

end Verif.Encoding.Spec
