import Verif.Bits
/-
Model of /repo/pythonref/falcon_codec.py (modq and trim_i8 codecs),
PublicKey.from_bytes (/repo/pythonref/falcon.py 236-285),
encode_public_key / encode_secret_key / decode_secret_key_nist (/repo/pythonref/scripts/generate_kat_rsp.py 68-163)
and _ZKNOX_NTT_Decompress (/repo/src/ZKNOX_falcon_utils.sol 133-165).
Accumulators are unbounded `Nat`s as in Python; in the Solidity function `acc` is taken mod 2^32.
-/

namespace Verif.Codec
open Verif

/-- The loop `while acc_len >= 8: acc_len -= 8; buf[buf_pos] = (acc >> acc_len) & 0xFF; buf_pos += 1`
(falcon_codec.py 50-53 and 124-127).  Writing past the end of the bytearray raises IndexError. -/
def flush (acc : Nat) (accLen pos : Nat) (buf : Bytes) : Except Err (Nat × Nat × Bytes) :=
  if accLen ≥ 8 then
    if pos < buf.length then
      flush acc (accLen - 8) (pos + 1) (buf.set pos ((acc >>> (accLen - 8)) &&& 0xFF))
    else .error .indexError
  else .ok (accLen, pos, buf)
termination_by accLen

/-- The `for coef in x` loop of `modq_encode` and the final partial byte, falcon_codec.py 45-58. -/
def modqEncLoop : List Int → (acc accLen pos : Nat) → Bytes → Except Err Bytes
  | [], acc, accLen, pos, buf =>
    if accLen > 0 then
      if pos < buf.length then .ok (buf.set pos ((acc <<< (8 - accLen)) &&& 0xFF)) else .error .indexError
    else .ok buf
  | coef :: x, acc, accLen, pos, buf =>
    if coef ≥ 12289 ∨ coef < 0 then .error .valueError
    else
      let acc := (acc <<< 14) ||| coef.toNat
      match flush acc (accLen + 14) pos buf with
      | .error e => .error e
      | .ok (accLen, pos, buf) => modqEncLoop x acc accLen pos buf

/-- `modq_encode(x, n)`, falcon_codec.py 28-58. -/
def modqEncode (x : List Int) (n : Nat) : Except Err Bytes :=
  modqEncLoop x 0 0 0 (List.replicate ((n * 14 + 7) / 8) 0)

/-- The `while len(x) < n` loop of `modq_decode` with the trailing-bit check, falcon_codec.py 76-95.
`data[buf_pos]; buf_pos += 1` consumes the head of the remaining data. -/
def modqDecLoop (n : Nat) : (acc accLen : Nat) → (x : List Nat) → Bytes → Except Err (List Nat)
  | acc, accLen, x, [] =>
    if x.length < n then .error .indexError
    else if acc &&& ((1 <<< accLen) - 1) ≠ 0 then .error .valueError else .ok x
  | acc, accLen, x, b :: data =>
    if x.length < n then
      let acc := (acc <<< 8) ||| b
      let accLen := accLen + 8
      if accLen ≥ 14 then
        let accLen := accLen - 14
        let w := (acc >>> accLen) &&& 0x3FFF
        if w ≥ 12289 then .error .valueError
        else modqDecLoop n acc accLen (x ++ [w]) data
      else modqDecLoop n acc accLen x data
    else if acc &&& ((1 <<< accLen) - 1) ≠ 0 then .error .valueError else .ok x

/-- `modq_decode(data, n)`, falcon_codec.py 61-95. -/
def modqDecode (data : Bytes) (n : Nat) : Except Err (List Nat) :=
  if data.length < (n * 14 + 7) / 8 then .error .valueError
  else modqDecLoop n 0 0 [] data

/-- The `for coef in x` loop of `trim_i8_encode` and the final partial byte, falcon_codec.py 120-133.
`coef & mask` on a Python int is the residue mod `2^bits`. -/
def trimEncLoop (bits : Nat) : List Int → (acc accLen pos : Nat) → Bytes → Except Err Bytes
  | [], acc, accLen, pos, buf =>
    if accLen > 0 then
      if pos < buf.length then .ok (buf.set pos ((acc <<< (8 - accLen)) &&& 0xFF)) else .error .indexError
    else .ok buf
  | coef :: x, acc, accLen, pos, buf =>
    let maxv : Int := 2 ^ (bits - 1) - 1
    if coef < -maxv ∨ coef > maxv then .error .valueError
    else
      let acc := (acc <<< bits) ||| (coef % 2 ^ bits).toNat
      match flush acc (accLen + bits) pos buf with
      | .error e => .error e
      | .ok (accLen, pos, buf) => trimEncLoop bits x acc accLen pos buf

/-- `trim_i8_encode(x, n, bits)`, falcon_codec.py 98-133.  `bits = 0` raises ValueError
(`1 << (bits - 1)` is a negative shift). -/
def trimEncode (x : List Int) (n bits : Nat) : Except Err Bytes :=
  if bits = 0 then .error .valueError
  else trimEncLoop bits x 0 0 0 (List.replicate ((n * bits + 7) / 8) 0)

/-- Sign extension `w |= -(w & mask2)`, falcon_codec.py 167, for `0 ≤ w < 2^bits`
(in two's complement, setting all the bits from `bits-1` upwards subtracts `2^bits`). -/
def signExtend (bits w : Nat) : Int :=
  if w &&& (1 <<< (bits - 1)) ≠ 0 then (w : Int) - 2 ^ bits else w

/-- The inner loop `while acc_len >= bits and len(x) < n`, falcon_codec.py 163-171. -/
def trimDrain (n bits acc accLen : Nat) (x : List Int) : Except Err (Nat × List Int) :=
  if h : accLen ≥ bits ∧ x.length < n ∧ 0 < bits then
    let accLen := accLen - bits
    let w := signExtend bits ((acc >>> accLen) &&& ((1 <<< bits) - 1))
    if w = -((1 <<< (bits - 1) : Nat) : Int) then .error .valueError
    else trimDrain n bits acc accLen (x ++ [w])
  else .ok (accLen, x)
termination_by accLen
decreasing_by omega

/-- The outer loop of `trim_i8_decode` with the trailing-bit check, falcon_codec.py 159-176. -/
def trimDecLoop (n bits : Nat) : (acc accLen : Nat) → (x : List Int) → Bytes → Except Err (List Int)
  | acc, accLen, x, [] =>
    if x.length < n then .error .indexError
    else if acc &&& ((1 <<< accLen) - 1) ≠ 0 then .error .valueError else .ok x
  | acc, accLen, x, b :: data =>
    if x.length < n then
      let acc := (acc <<< 8) ||| b
      match trimDrain n bits acc (accLen + 8) x with
      | .error e => .error e
      | .ok (accLen, x) => trimDecLoop n bits acc accLen x data
    else if acc &&& ((1 <<< accLen) - 1) ≠ 0 then .error .valueError else .ok x

/-- `trim_i8_decode(data, n, bits)`, falcon_codec.py 136-176. -/
def trimDecode (data : Bytes) (n bits : Nat) : Except Err (List Int) :=
  if data.length < (n * bits + 7) / 8 then .error .valueError
  else if bits = 0 then .error .valueError
  else trimDecLoop n bits 0 0 [] data

/-! ### PublicKey.from_bytes -/

/-- The inner loop `while acc_bits >= 14 and len(h) < n`, falcon.py 270-280. -/
def fromBytesDrain (n acc accBits : Nat) (h : List Nat) : Except Err (Nat × Nat × List Nat) :=
  if accBits ≥ 14 ∧ h.length < n then
    let accBits' := accBits - 14
    let val := (acc >>> accBits') &&& 0x3FFF
    if val ≥ 12289 then .error .valueError
    else fromBytesDrain n (acc &&& ((1 <<< accBits') - 1)) accBits' (h ++ [val])
  else .ok (acc, accBits, h)
termination_by accBits
decreasing_by omega

/-- `for b in data`, falcon.py 266-283. -/
def fromBytesLoop (n : Nat) : (acc accBits : Nat) → List Nat → Bytes → Except Err (List Nat)
  | _, _, h, [] => if h.length ≠ n then .error .valueError else .ok h
  | acc, accBits, h, b :: data =>
    match fromBytesDrain n ((acc <<< 8) ||| b) (accBits + 8) h with
    | .error e => .error e
    | .ok (acc, accBits, h) => fromBytesLoop n acc accBits h data

/-- `PublicKey.from_bytes(pk_bytes)`, falcon.py 236-285; result `(n, h)`. -/
def fromBytes (pk : Bytes) : Except Err (Nat × List Nat) :=
  if pk.length ≠ 897 ∧ pk.length ≠ 1792 then .error .valueError
  else match pk with
    | [] => .error .indexError
    | hd :: data =>
      if hd = 0x09 then (fromBytesLoop 512 0 0 [] data).map fun h => (512, h)
      else if hd = 0x0A then (fromBytesLoop 1024 0 0 [] data).map fun h => (1024, h)
      else .error .valueError

/-- `encode_public_key(h, n)`, scripts/generate_kat_rsp.py 68-90.  The last group of fewer than 8 bits
is converted as it stands (`int(bits[i:i+8], 2)`). -/
def encodePublicKey (h : List Int) : Bytes :=
  let bits := h.flatMap fun c => natBits 14 (c % 12289).toNat
  0x09 :: (List.range ((bits.length + 7) / 8)).map fun i => bitsNat ((bits.drop (8 * i)).take 8)

/-! ### secret keys -/

/-- `MAX_FG_BITS`, falcon_codec.py 16-19. -/
def maxFgBits (logn : Nat) : Nat :=
  if logn ≤ 5 then 8 else if logn ≤ 7 then 7 else if logn ≤ 9 then 6 else 5

/-- `MAX_FG_BITS_FG`, falcon_codec.py 22-25. -/
def maxFGBitsFG (_logn : Nat) : Nat := 8

/-- `decode_secret_key_nist(sk, n)`, scripts/generate_kat_rsp.py 112-163, the part that reads
`(f, g, F)` (G is then computed by `complete_private`; the hex parsing and the printing are left out). -/
def decodeSecretKeyNist (sk : Bytes) (n : Nat) : Except Err (List Int × List Int × List Int) :=
  match sk with
  | [] => .error .indexError
  | header :: _ =>
    let logn : Int := (header : Int) - 0x50
    if logn < 1 ∨ logn > 10 then .error .valueError
    else
      let logn := logn.toNat
      if n ≠ 1 <<< logn then .error .valueError
      else
        let fgLen := (n * maxFgBits logn + 7) / 8
        let FGLen := (n * maxFGBitsFG logn + 7) / 8
        let offset := 1
        match trimDecode ((sk.drop offset).take fgLen) n (maxFgBits logn) with
        | .error e => .error e
        | .ok f =>
          let offset := offset + fgLen
          match trimDecode ((sk.drop offset).take fgLen) n (maxFgBits logn) with
          | .error e => .error e
          | .ok g =>
            let offset := offset + fgLen
            match trimDecode ((sk.drop offset).take FGLen) n (maxFGBitsFG logn) with
            | .error e => .error e
            | .ok F => .ok (f, g, F)

/-- `encode_secret_key(f, g, F, G, n)`, scripts/generate_kat_rsp.py 93-109: big-endian 16-bit two's
complement words (`(1 << 16) + coef` for negative coefficients; `>> 8` and `& 0xFF` are floor operations). -/
def encodeSecretKey (polys : List (List Int)) : Bytes :=
  polys.flatMap fun p => p.flatMap fun coef =>
    let val : Int := if coef < 0 then 2 ^ 16 + coef else coef
    [((val / 256) % 256).toNat, (val % 256).toNat]

/-! ### the contract's unpacking -/

/-- The loop of `_ZKNOX_NTT_Decompress`, ZKNOX_falcon_utils.sol 140-161; `acc` is a uint32.
`buf[cpt]` past the end is a Panic (revert). -/
def solDecLoop (n : Nat) : (acc accLen : Nat) → List Nat → Bytes → Except Err (List Nat)
  | acc, accLen, x, [] =>
    if x.length < n then .error (.revert "panic 0x32")
    else if acc &&& ((1 <<< accLen) - 1) ≠ 0 then .error (.revert "") else .ok x
  | acc, accLen, x, b :: data =>
    if x.length < n then
      let acc := ((acc <<< 8) % 2 ^ 32) ||| b
      let accLen := accLen + 8
      if accLen ≥ 14 then
        let accLen := accLen - 14
        let w := (acc >>> accLen) &&& 0x3FFF
        if w ≥ 12289 then .error (.revert "wrong coeff")
        else solDecLoop n acc accLen (x ++ [w]) data
      else solDecLoop n acc accLen x data
    else if acc &&& ((1 <<< accLen) - 1) ≠ 0 then .error (.revert "") else .ok x

/-- `_ZKNOX_NTT_Decompress(buf, offset)`, ZKNOX_falcon_utils.sol 133-165. -/
def solDecompress (buf : Bytes) (offset : Nat) : Except Err (List Nat) :=
  solDecLoop 512 0 0 [] (buf.drop offset)

end Verif.Codec
