import Verif.Hash.Model
import Verif.NTT.Model

/-! # The on-chain verifiers `ZKNOX_falcon.sol`, `ZKNOX_ethfalcon.sol`, `ZKNOX_falcon_core.sol` -/

namespace Verif.Contract

open Verif Verif.Packing Verif.NTT

/-- `sigBound`, ZKNOX_falcon_utils.sol 39. -/
def sigBound : Nat := 34034726
/-- `qs1`, ZKNOX_falcon_utils.sol 48. -/
def qs1 : Nat := 6144

/-- EVM `add` and `mul`. -/
def addw (a b : Nat) : Nat := (a + b) % W
def mulw (a b : Nat) : Nat := a * b % W
/-- EVM `gt`. -/
def gtw (a b : Nat) : Nat := if a > b then 1 else 0

/-- The folding to an absolute value, falcon_core.sol 64-65, 83-84:
`cond := gt(s1i, qs1); s1i := add(mul(cond, sub(q, s1i)), mul(sub(1, cond), s1i))`. -/
def foldCoef (x : Nat) : Nat := addw (mulw (gtw x qs1) (subw qF x)) (mulw (subw 1 (gtw x qs1)) x)

/-- A loop `for { let offset := start } lt(offset, 16384) { offset := add(offset, 32) }` accumulating squares into `norm`; `read offset` is the
coefficient computed from `offset`.  512 iterations of fuel always suffice. -/
def normLoop (read : Nat → Nat) : Nat → Nat → Nat → Nat
  | 0, _, norm => norm
  | fuel + 1, offset, norm =>
    if offset < 16384 then normLoop read fuel (offset + 32) (addw norm (mulw (foldCoef (read offset)) (foldCoef (read offset))))
    else norm

/-- `falcon_normalize`, falcon_core.sol 50-92.  `s1Ptr` is the memory address of the array `s1`; arrays are addressed by `offset - base`, `base` the address
of their length word.  In the first loop `offset` is relative to the array; in the last loop it is the absolute address `s1 + 32`. -/
def normalize (s1Ptr : Nat) (s1 s2 hashed : List Nat) : Bool :=
  let norm := normLoop (fun off => addmod hashed[(off - 32) / 32]! (subw qF s1[(off - 32) / 32]!) qF) 512 32 0
  let s1' := solExpand (asMem s2 (fun _ => 0))
  let norm := normLoop (fun off => s1'[(off - (s1Ptr + 32)) / 32]!) 512 (s1Ptr + 32) norm
  decide (sigBound > norm)

/-- The address of `s1` in `falcon_core` when the free-memory pointer is `fmp` at its start.  Before `s1` the code allocates (NTT_falcon.sol 186-192, core.sol 112):
the expanded `s2` (512 words and a length), the forward table (32 words), the expanded key, the pointwise product, the inverse table, the packed product (32 words and a length). -/
def s1Pointer (fmp : Nat) : Nat := fmp + (32 + 32 * 512) + 32 * 32 + (32 + 32 * 512) + (32 + 32 * 512) + 32 * 32 + (32 + 32 * 32)

/-- `falcon_core`, falcon_core.sol 103-119. -/
def falconCore (fmp : Nat) (s2 ntth hashed : List Nat) : Bool :=
  if hashed.length ≠ 512 then false
  else if s2.length ≠ 32 then false
  else
    let s1 := solExpand (asMem (halfMulCompact (asMem s2 (fun _ => 0)) (asMem ntth (fun _ => 0))) (fun _ => 0))
    normalize (s1Pointer fmp) s1 s2 hashed

/-- `verify(bytes h, bytes salt, uint256[] s2, uint256[] ntth)`, ZKNOX_falcon.sol 49-79 (`hp = hashToPointNIST`) and ZKNOX_ethfalcon.sol 47-77 (`hp = hashToPointEVM`).
`fmp`: the free-memory pointer when `falcon_core` is entered.  Outer `none`: the hash loop did not end within the fuel. -/
def verify (hp : Bytes → Bytes → Nat → Option (List Nat)) (fmp : Nat) (h salt : Bytes) (s2 ntth : List Nat) (fuel : Nat) : Option (Except Err Bool) :=
  if salt.length ≠ 40 then some (.error (.revert "invalid salt length"))
  else if s2.length ≠ 32 then some (.error (.revert "invalid s2 length"))
  else if ntth.length ≠ 32 then some (.error (.revert "invalid ntth length"))
  else match hp salt h fuel with
    | none => none
    | some hashed => some (.ok (falconCore fmp s2 ntth hashed))

/-- Consecutive big-endian 32-byte words. -/
def wordsAt (b : Bytes) (off cnt : Nat) : List Nat := (List.range cnt).map fun i => Hash.Sol.word ((b.drop (off + 32 * i)).take 32)

/-- `abi.decode(data, (uint256[]))`: the head is the offset of the array, then length and elements; every range is checked. -/
def abiDecode (data : Bytes) : Except Err (List Nat) :=
  if data.length < 32 then .error (.revert "")
  else
    let off := Hash.Sol.word (data.take 32)
    if off > 0xffffffffffffffff then .error (.revert "")
    else if ¬ (off + 31 < data.length) then .error (.revert "")
    else
      let len := Hash.Sol.word ((data.drop off).take 32)
      if len > 0xffffffffffffffff then .error (.revert "")
      else if off + 32 + 32 * len > data.length then .error (.revert "")
      else .ok (wordsAt data (off + 32) len)

/-- `verify(bytes _pubkey, bytes32 _digest, bytes _sig)`, ZKNOX_falcon.sol 81-134, ZKNOX_ethfalcon.sol 79-132.  `stored` is the result of `SSTORE2.read` at the address
in `_pubkey`; `some true` stands for the selector, `some false` for `0xFFFFFFFF`.  The signature buffer is cut into the first 40 bytes and the words that follow; the number of words is
`div(sub(len, 40), 32)`, which for `len < 40` is so large that the call to `verify` reverts. -/
def verifyBytes (hp : Bytes → Bytes → Nat → Option (List Nat)) (fmp : Nat) (stored : Except Err Bytes) (digest sig : Bytes) (fuel : Nat) : Option (Except Err Bool) :=
  match stored with
  | .error e => some (.error e)
  | .ok data =>
    match abiDecode data with
    | .error e => some (.error e)
    | .ok ntth =>
      let cnt := subw sig.length 40 / 32
      if cnt ≥ 2 ^ 64 then some (.error (.revert ""))
      else verify hp fmp digest (sig.take 40) (wordsAt sig 40 cnt) ntth fuel

/-- The 32 big-endian bytes of a word. -/
def wordBytes (w : Nat) : Bytes := (List.range 32).map fun i => w / 256 ^ (31 - i) % 256

/-- `_packSignature`, ZKNOX_common.sol 53-69: the first 40 bytes of the salt (an index panic if it is shorter), then the words. -/
def packSignature (salt : Bytes) (s2 : List Nat) : Except Err Bytes :=
  if salt.length < 40 then .error (.revert "panic") else .ok (salt.take 40 ++ s2.flatMap wordBytes)

/-- `falcon_checkPolynomialRange`, falcon_core.sol 17-38.  (The flag is tested the wrong way round: the array is expanded when `is_compact` is false.) -/
def checkPolynomialRange (p : List Nat) (isCompact : Bool) : Bool :=
  let a := if isCompact = false then solExpand (asMem p (fun _ => 0)) else p
  a.foldl (fun result x => if x > qF then false else result) true

end Verif.Contract
