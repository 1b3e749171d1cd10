import Verif.Bits

/-! # Packing of coefficients, and split/merge

Models `pythonref/common.py` and the pack/unpack helpers of `src/ZKNOX_falcon_utils.sol`. -/

namespace Verif.Packing

/-- `2^256`, the EVM word modulus. -/
def W : Nat := 2 ^ 256

/-- `split`, pythonref/common.py 8-19: `f0[i] = f[2i]`, `f1[i] = f[2i+1]` for `i < len(f)//2`.
Elements may be of any type (integers, reals, complexes). -/
def split {α : Type} [Inhabited α] (f : List α) : List α × List α :=
  ((List.range (f.length / 2)).map fun i => f[2 * i]!, (List.range (f.length / 2)).map fun i => f[2 * i + 1]!)

/-- `merge`, pythonref/common.py 22-36: `f[2i] = f0[i]`, `f[2i+1] = f1[i]` for `i < len(f0)`.
Returns an IndexError when `f1` is shorter than `f0`; the placeholder list `[0]*n` is overwritten everywhere. -/
def merge {α : Type} [Inhabited α] (f0 f1 : List α) : Except Err (List α) :=
  if f1.length < f0.length then .error .indexError
  else .ok ((List.range f0.length).foldl (fun f i => (f.set (2 * i) f0[i]!).set (2 * i + 1) f1[i]!)
    (List.replicate (2 * f0.length) default))

/-- `sqnorm`, pythonref/common.py 39-45. -/
def sqnorm (v : List (List Int)) : Int :=
  v.foldl (fun res elt => elt.foldl (fun res coef => res + coef ^ 2) res) 0

/-- One step of the packing loop, common.py 55-56: `b[i >> 4] |= a[i] << ((i & 0xF) * 16)`. -/
def compactStep (a : List Nat) (b : List Nat) (i : Nat) : List Nat :=
  b.set (i >>> 4) (b[i >>> 4]! ||| (a[i]! <<< ((i &&& 0xF) * 16)))

/-- `falcon_compact`, pythonref/common.py 48-58, for lists of non-negative integers.
(The assertion on line 53 does not reject negative integers; those are outside this model.) -/
def falconCompact (a : List Nat) : Except Err (List Nat) :=
  if a.length % 16 ≠ 0 then .error .assertError
  else if ∃ x ∈ a, ¬ x < 1 <<< 16 then .error .assertError
  else .ok ((List.range a.length).foldl (compactStep a) (List.replicate (a.length >>> 4) 0))

/-- One step of the contract's packing loop, src/ZKNOX_falcon_utils.sol 83-87:
`mstore(bi, xor(mload(bi), shl(shl(4, and(i, 0xf)), mload(aa))))` with `bi` the word `i >> 4` of `b`;
EVM `shl` drops the bits above 256.  `a i` is the `i`-th memory word after the array length. -/
def solCompactStep (a : Nat → Nat) (b : List Nat) (i : Nat) : List Nat :=
  b.set (i >>> 4) (b[i >>> 4]! ^^^ ((a i) <<< ((i &&& 0xf) <<< 4) % W))

/-- `_ZKNOX_NTT_Compact`, src/ZKNOX_falcon_utils.sol 77-91.  The input length is not checked: the loop always reads 512 words. -/
def solCompact (a : Nat → Nat) : List Nat :=
  (List.range 512).foldl (solCompactStep a) (List.replicate 32 0)

/-- Body of the contract's expansion, src/ZKNOX_falcon_utils.sol 117-119:
for `j < 16`, `b[j + (i << 4)] = (ai >> (j << 4)) & 0xffff`. -/
def solExpandStep (a : Nat → Nat) (b : List Nat) (i : Nat) : List Nat :=
  (List.range 16).foldl (fun b j => b.set (j + (i <<< 4)) ((a i >>> (j <<< 4)) &&& 0xffff)) b

/-- `_ZKNOX_NTT_Expand`, src/ZKNOX_falcon_utils.sol 98-124. -/
def solExpand (a : Nat → Nat) : List Nat :=
  (List.range 32).foldl (solExpandStep a) (List.replicate 512 0)

/-- `Swap`, src/ZKNOX_falcon_utils.sol 58-70: `Mirror[511 - i] = Pol[i]`. -/
def solSwap (a : Nat → Nat) : List Nat :=
  (List.range 512).foldl (fun m i => m.set (511 - i) (a i)) (List.replicate 512 0)

/-- How the contract sees a memory array holding the list `l` (words beyond the end: `d`). -/
def asMem (l : List Nat) (d : Nat → Nat) (i : Nat) : Nat := if h : i < l.length then l[i] else d i

end Verif.Packing
