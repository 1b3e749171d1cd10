import Verif.Codec.Model
/-
Model of /repo/src/ZKNOX_falcon_encodings.sol: `_decompress_sig` and `decompress_KAT`.
Memory is the byte list `mem` starting at the first data byte of `buf` (the buffer's bytes and whatever
lies after it); reading beyond it gives 0, as EVM memory does.  `mload` has no bounds check.
-/
namespace Verif.SolSig
open Verif

/-- `byte(0, mload(add(add(buf, 32), v)))` -/
def rd (mem : Bytes) (v : Nat) : Nat := mem.getD v 0

/-- The inner `for {} eq(0, 0) {}` loop, ZKNOX_falcon_encodings.sol 41-61.  (The Yul variable `acc` is a 256-bit
word: `shl` drops the bits above 2^256.)  Result: `(acc, acc_len, v, m)`. -/
def unaryLoop (mem : Bytes) (acc accLen v m : Nat) : Except Err (Nat × Nat × Nat × Nat) :=
  let fill := accLen = 0
  let acc := if fill then ((acc <<< 8) % 2 ^ 256) ||| rd mem v else acc
  let v := if fill then 1 + v else v
  let accLen := if fill then 8 else accLen
  let accLen := accLen - 1
  if (acc >>> accLen) &&& 1 ≠ 0 then .ok (acc, accLen, v, m)
  else if m + 128 > 2047 then .error (.revert "coeff to big")
  else unaryLoop mem acc accLen v (m + 128)
termination_by 2048 - m
decreasing_by omega

/-- The loop over `u`, ZKNOX_falcon_encodings.sol 24-79: `k` coefficients remain to be read.
Result: the coefficients and the final `v`. -/
def sigLoop (mem : Bytes) : (k : Nat) → (acc accLen v : Nat) → Except Err (List Nat × Nat)
  | 0, _, _, v => .ok ([], v)
  | k + 1, acc, accLen, v =>
    let acc := ((acc <<< 8) % 2 ^ 256) ||| rd mem v
    let v := v + 1
    let b := acc >>> accLen
    let s := b &&& 128
    let m := b &&& 127
    match unaryLoop mem acc accLen v m with
    | .error e => .error e
    | .ok (acc, accLen, v, m) =>
      let temp := if s = 0x80 then 12289 - m else m
      match sigLoop mem k acc accLen v with
      | .error e => .error e
      | .ok (xs, v) => .ok (temp :: xs, v)

/-- `_decompress_sig(buf, offset)`, ZKNOX_falcon_encodings.sol 17-87 (`max_in_len = 666`, `n = 512`).
`mem` must begin with the bytes of `buf`. -/
def decompressSig (mem : Bytes) (offset : Nat) : Except Err (List Nat) :=
  match sigLoop mem 512 0 0 offset with
  | .error e => .error e
  | .ok (x, v) => if v - offset ≥ 666 then .error (.revert "too long") else .ok x

/-- Solidity array access with bounds check (Panic 0x32). -/
def at? (a : Bytes) (i : Nat) : Except Err Nat :=
  match a[i]? with
  | some b => .ok b
  | none => .error (.revert "panic 0x32")

/-- `decompress_KAT(pk, sm, mlen)`, ZKNOX_falcon_encodings.sol 98-130; `ext` is the memory after `sm`.
Result `(h, s2, salt, message)`.  Loops copying bytes are `mapM`s of bounds-checked reads. -/
def decompressKAT (pk sm : Bytes) (mlen : Nat) (ext : Bytes) :
    Except Err (List Nat × List Nat × Bytes × Bytes) := do
  let _ ← at? sm 0
  let _ ← at? sm 1
  let hd ← at? pk 0
  if hd ≠ 0x09 then throw (.revert "wrong public key encoding")
  let h ← Codec.solDecompress pk 1
  let salt ← (List.range 40).mapM fun i => at? sm (i + 2)
  let message ← (List.range mlen).mapM fun j => at? sm (j + 42)
  let hb ← at? sm (2 + 40 + mlen)
  if hb ≠ 0x29 then throw (.revert "wrong header sigbytes")
  let s2 ← decompressSig (sm ++ ext) (2 + 40 + mlen + 1)
  return (h, s2, salt, message)

/-- The tail of `sign_message`, scripts/generate_kat_rsp.py 224-238: rearranging a Python signature
`header ‖ salt(40) ‖ compressed` into `slen(2) ‖ salt ‖ msg ‖ 0x29 ‖ compressed`.
`slen.to_bytes(2, 'big')` raises OverflowError (here `valueError`) from 65536 on. -/
def katSignedMessage (sig msg : Bytes) : Except Err Bytes :=
  let salt := (sig.drop 1).take 40
  let comp := sig.drop 41
  let slen := 40 + msg.length + 1 + comp.length
  if slen ≥ 65536 then .error .valueError
  else .ok ([slen / 256, slen % 256] ++ salt ++ msg ++ [0x29] ++ comp)

end Verif.SolSig
