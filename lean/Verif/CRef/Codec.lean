import Verif.CRef.Vrfy

/-! # The codecs of the C reference code

Models `falcon/nistfalcon/src/codec.c`.  Arrays `x` are lists of exactly `n = 2^logn` entries; the input of a decoder is the list of the `max_in_len` bytes it may read; the output of an
encoder is the list of the bytes it writes.  A result `none` (encoders) or `error valueError` (decoders) is the return value 0; `error indexError` is a read outside the `max_in_len`
bytes (undefined behaviour), which the theorems exclude.  A decoder that succeeds returns the number of bytes it consumed. -/

namespace Verif.CRef
open Verif

/-- `acc = (acc << w) | v` on `uint32_t`. -/
def push32 (acc w v : Nat) : Nat := ((acc <<< w) % 4294967296) ||| v

/-- `while (acc_len >= 8) { acc_len -= 8; *buf ++ = (uint8_t)(acc >> acc_len); }`, codec.c 64-67, 106-109, 228-231, 325-328, 516-519. -/
def emit (acc accLen : Nat) (out : Bytes) : Nat × Bytes :=
  if accLen ≥ 8 then emit acc (accLen - 8) (out ++ [(acc >>> (accLen - 8)) % 256]) else (accLen, out)
termination_by accLen

/-- The writing loop and the last partial byte, codec.c 61-71, 103-113, 225-236, 322-333, 512-524, for fields `v` of `w` bits. -/
def packLoop (w : Nat) : List Nat → Nat → Nat → Bytes → Bytes
  | [], acc, accLen, out => if accLen > 0 then out ++ [(acc <<< (8 - accLen)) % 256] else out
  | v :: vs, acc, accLen, out =>
    let acc := push32 acc w v
    let r := emit acc (accLen + w) out
    packLoop w vs acc r.1 r.2

/-- `((n * w) + 7) >> 3`, codec.c 50, 92, 129, 169, 215, 258, 312, 354, 504, 614. -/
def outLen (n w : Nat) : Nat := (n * w + 7) >>> 3

/-- `modq_encode` (`w = 14`), codec.c 35-73, and `modq_encode16` (`w = 16`), codec.c 76-115; `out` is not NULL. -/
def modqEncodeW (w maxOut : Nat) (x : List Nat) (logn : Nat) : Option Bytes :=
  if x.any (fun v => decide (v ≥ 12289)) then none
  else if outLen (2 ^ logn) w > maxOut then none
  else some (packLoop w x 0 0 [])

/-- The field of one coefficient in `trim_i8_encode`, codec.c 323 (`t = 256`), and `trim_i16_encode`, codec.c 226 (`t = 65536`): the cast to the unsigned type, then the mask. -/
def trimField (t bits : Nat) (x : Int) : Nat := (x % t).toNat &&& ((1 <<< bits) - 1)

/-- `trim_i8_encode` (`t = 256`), codec.c 294-335, and `trim_i16_encode` (`t = 65536`), codec.c 198-239. -/
def trimEncodeT (t maxOut : Nat) (x : List Int) (logn bits : Nat) : Option Bytes :=
  let maxv : Int := 2 ^ (bits - 1) - 1
  if x.any (fun v => decide (v < -maxv) || decide (v > maxv)) then none
  else if outLen (2 ^ logn) bits > maxOut then none
  else some (packLoop bits (x.map (trimField t bits)) 0 0 [])

/-- The field of one coefficient in `comp_encode16`, codec.c 514: `x[u] + ((x[u] >> 31) & 12289)`. -/
def comp16Field (x : Int) : Nat := (if x < 0 then x + 12289 else x).toNat

/-- `comp_encode16`, codec.c 487-527. -/
def compEncode16 (maxOut : Nat) (x : List Int) (logn : Nat) : Option Bytes :=
  if x.any (fun v => decide (v ≥ 12289) || decide (v ≤ -12289)) then none
  else if outLen (2 ^ logn) 16 > maxOut then none
  else some (packLoop 16 (x.map comp16Field) 0 0 [])

/-- The reading loop with the check of the trailing bits, codec.c 137-154, 177-194, 623-642: one field at most is completed by each byte (`if`, not `while`). -/
def unpackLoop {α : Type} (n w : Nat) (post : Nat → Option α) : Nat → Nat → List α → Bytes → Except Err (List α)
  | acc, accLen, x, [] =>
    if x.length < n then .error .indexError
    else if acc &&& ((1 <<< accLen) - 1) ≠ 0 then .error .valueError else .ok x
  | acc, accLen, x, b :: data =>
    if x.length < n then
      let acc := push32 acc 8 b
      let accLen := accLen + 8
      if accLen ≥ w then
        let accLen := accLen - w
        match post ((acc >>> accLen) &&& ((1 <<< w) - 1)) with
        | none => .error .valueError
        | some v => unpackLoop n w post acc accLen (x ++ [v]) data
      else unpackLoop n w post acc accLen x data
    else if acc &&& ((1 <<< accLen) - 1) ≠ 0 then .error .valueError else .ok x

/-- The check of one field, codec.c 144-147, 184-187. -/
def modqField (w : Nat) : Option Nat := if w ≥ 12289 then none else some w

/-- `modq_decode` (`w = 14`), codec.c 118-155, and `modq_decode16` (`w = 16`), codec.c 158-195. -/
def modqDecodeW (w logn : Nat) (data : Bytes) : Except Err (List Nat) :=
  if outLen (2 ^ logn) w > data.length then .error .valueError
  else unpackLoop (2 ^ logn) w modqField 0 0 [] data

/-- One field of `comp_decode16`, codec.c 627-636: the field is read as `int16_t`, so fields from 32768 on are negative and pass the test `w >= 12289`;
`~((w - 2047) >> 31)` is 0 for `w < 2047` and -1 otherwise. -/
def comp16Value (f : Nat) : Option Int :=
  let w := i16 f
  if w ≥ 12289 then none
  else some (if w - 2047 < 0 then w else w - 12289)

/-- `comp_decode16`, codec.c 603-644. -/
def compDecode16 (logn : Nat) (data : Bytes) : Except Err (List Int) :=
  if outLen (2 ^ logn) 16 > data.length then .error .valueError
  else unpackLoop (2 ^ logn) 16 comp16Value 0 0 [] data

/-- One field of `trim_i8_decode` (`t = 256`), codec.c 367-376, and `trim_i16_decode` (`t = 65536`), codec.c 271-281: sign extension on `uint32_t`, the forbidden value, the cast. -/
def trimValue (t bits f : Nat) : Option Int :=
  let mask2 := 1 <<< (bits - 1)
  let w := f ||| neg32 (f &&& mask2)
  if w = neg32 mask2 then none
  else
    let v := i32 w % t
    some (if v < t / 2 then v else v - t)

/-- The inner loop `while (acc_len >= bits && u < n)`, codec.c 263-282, 359-377. -/
def trimInner (t n bits acc accLen : Nat) (x : List Int) : Except Err (Nat × List Int) :=
  if h : accLen ≥ bits ∧ x.length < n ∧ 0 < bits then
    match trimValue t bits ((acc >>> (accLen - bits)) &&& ((1 <<< bits) - 1)) with
    | none => .error .valueError
    | some v => trimInner t n bits acc (accLen - bits) (x ++ [v])
  else .ok (accLen, x)
termination_by accLen
decreasing_by omega

/-- The outer loop of `trim_i8_decode` and `trim_i16_decode` with the check of the trailing bits, codec.c 260-289, 356-384. -/
def trimLoop (t n bits : Nat) : Nat → Nat → List Int → Bytes → Except Err (List Int)
  | acc, accLen, x, [] =>
    if x.length < n then .error .indexError
    else if acc &&& ((1 <<< accLen) - 1) ≠ 0 then .error .valueError else .ok x
  | acc, accLen, x, b :: data =>
    if x.length < n then
      let acc := push32 acc 8 b
      match trimInner t n bits acc (accLen + 8) x with
      | .error e => .error e
      | .ok (accLen, x) => trimLoop t n bits acc accLen x data
    else if acc &&& ((1 <<< accLen) - 1) ≠ 0 then .error .valueError else .ok x

/-- `trim_i8_decode` (`t = 256`), codec.c 339-386, and `trim_i16_decode` (`t = 65536`), codec.c 243-291; `bits` is at least 1. -/
def trimDecodeT (t logn bits : Nat) (data : Bytes) : Except Err (List Int) :=
  if outLen (2 ^ logn) bits > data.length then .error .valueError
  else trimLoop t (2 ^ logn) bits 0 0 [] data

/-! ## The compressed format -/

/-- `while (acc_len >= 8) {...}` of `comp_encode`, codec.c 456-466, with the capacity check; `cap = none`: the output buffer is NULL and only the length is computed. -/
def emitCap (cap : Option Nat) (acc accLen : Nat) (out : Bytes) : Option (Nat × Bytes) :=
  if accLen ≥ 8 then
    if cap.any (fun c => decide (out.length ≥ c)) then none
    else emitCap cap acc (accLen - 8) (out ++ [(acc >>> (accLen - 8)) % 256])
  else some (accLen, out)
termination_by accLen

/-- One coefficient pushed to the accumulator, codec.c 419-452: the sign bit, seven low bits, zeros and a one. -/
def compPush (acc accLen : Nat) (x : Int) : Nat × Nat :=
  let acc := push32 acc 1 (if x < 0 then 1 else 0)
  let w := x.natAbs
  let acc := push32 acc 7 (w &&& 127)
  let w := w >>> 7
  (push32 acc (w + 1) 1, accLen + 8 + (w + 1))

/-- The loops of `comp_encode`, codec.c 411-483. -/
def compEncLoop (cap : Option Nat) : List Int → Nat → Nat → Bytes → Option Bytes
  | [], acc, accLen, out =>
    if accLen > 0 then
      if cap.any (fun c => decide (out.length ≥ c)) then none else some (out ++ [(acc <<< (8 - accLen)) % 256])
    else some out
  | c :: x, acc, accLen, out =>
    let p := compPush acc accLen c
    match emitCap cap p.1 p.2 out with
    | none => none
    | some (l, out) => compEncLoop cap x p.1 l out

/-- `comp_encode`, codec.c 390-484; the result is the bytes written (their number is the return value; an empty result is a return of 0, as for `n >= 1` cannot happen). -/
def compEncode (cap : Option Nat) (x : List Int) : Option Bytes :=
  if x.any (fun v => decide (v < -2047) || decide (v > 2047)) then none
  else compEncLoop cap x 0 0 []

/-- `for (;;)` of `comp_decode`, codec.c 563-580: reads bits until a one; result: accumulator, its length, `m` and the rest of the input. -/
def compScan (acc accLen m : Nat) (data : Bytes) : Option (Nat × Nat × Nat × Bytes) :=
  match (if accLen = 0 then (match data with | [] => none | b :: data => some (push32 acc 8 b, 8, data)) else some (acc, accLen, data)) with
  | none => none
  | some (acc, accLen, data) =>
    let accLen := accLen - 1
    if (acc >>> accLen) &&& 1 ≠ 0 then some (acc, accLen, m, data)
    else if h : m + 128 > 2047 then none else compScan acc accLen (m + 128) data
termination_by 2048 - m
decreasing_by omega

/-- The loop over the coefficients of `comp_decode`, codec.c 546-590, and the check of the unused bits, codec.c 592-597; the result is the vector and the rest of the input. -/
def compDecLoop : Nat → Nat → Nat → List Int → Bytes → Option (List Int × Bytes)
  | 0, acc, accLen, x, data => if acc &&& ((1 <<< accLen) - 1) ≠ 0 then none else some (x, data)
  | u + 1, acc, accLen, x, data =>
    match data with
    | [] => none
    | d :: data =>
      let acc := push32 acc 8 d
      let b := acc >>> accLen
      let s := b &&& 128
      match compScan acc accLen (b &&& 127) data with
      | none => none
      | some (acc, accLen, m, data) =>
        if s ≠ 0 ∧ m = 0 then none
        else compDecLoop u acc accLen (x ++ [if s ≠ 0 then -(m : Int) else m]) data

/-- `comp_decode`, codec.c 531-600; the result is the vector and the number of bytes consumed. -/
def compDecode (logn : Nat) (data : Bytes) : Option (List Int × Nat) :=
  (compDecLoop (2 ^ logn) 0 0 [] data).map fun r => (r.1, data.length - r.2.length)

end Verif.CRef
