/-! # Specification of hash-to-point -/

namespace Verif.Hash

/-- The `k`-th 16-bit big-endian word of a byte stream. -/
def word16 (st : Nat → Nat) (k : Nat) : Nat := 256 * st (2 * k) + st (2 * k + 1)

/-- Of the first `T` words of the stream, those below `5 q = 61445`, reduced modulo `q = 12289`, in order. -/
def accepted (st : Nat → Nat) (T : Nat) : List Nat := (((List.range T).map (word16 st)).filter (· < 5 * 12289)).map (· % 12289)

/-- `out` is the point of the stream: the first `n` accepted words. -/
def IsPoint (st : Nat → Nat) (n : Nat) (out : List Nat) : Prop := ∃ T, accepted st T = out ∧ out.length = n

end Verif.Hash
