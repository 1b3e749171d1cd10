import Verif.CRef.Vrfy
import Verif.CRef.Codec
import Verif.CRef.Shake

/-! # `nist.c`, `nist16.c`, `epervier16.c`: key pairs, signing and opening

Byte strings are lists; lengths passed beside a pointer are the lengths of the lists.  `randombytes` gives the nonce and the seed as arguments.  The lattice code
(`keygen`, `sign_dyn`; floating point) enters as a parameter.  `eth` is the compile-time switch `ETHFALCON`. -/

namespace Verif.CRef

/-- The outcome of a call: `running` when the fuel of a loop was not enough, `fail` the return code −1, `done b` the return code 0 with output `b`. -/
inductive Res where
  | running
  | fail
  | done (b : Bytes)
deriving DecidableEq

/-- `init`, `inject` for every piece (codes ignored), `flip` and hash to point: nist16.c 244-256 and 367-377, nist.c 239-251 and 354-364; with `eth = false` also epervier16.c 122-126, 249-252. -/
def hashPieces (eth : Bool) (pieces : List Bytes) (fuel : Nat) : Option (List Nat) :=
  if eth then keccakHashToPoint (prngFlip (pieces.foldl (fun c d => (prngInject c d).2) prngInit)).2 9 fuel
  else shakeHashToPoint (Shake.flip (pieces.foldl Shake.inject Shake.init)) 9 fuel

/-! ## Keys -/

/-- The encoding of the private key, nist16.c 53-82 and 121-150, nist.c 56-82 and 129-150: header `0x50 + 9`, `f` and `g` on `max_fg_bits[9] = 6` bits, `F` on `max_FG_bits[9] = 8` bits
(codec.c 677-703), 1281 bytes in all. -/
def encodeSk (f g F : List Int) : Option Bytes :=
  let sk := [0x50 + 9]
  match trimEncodeT 256 (1281 - sk.length) f 9 6 with
  | none => none
  | some a =>
    let sk := sk ++ a
    match trimEncodeT 256 (1281 - sk.length) g 9 6 with
    | none => none
    | some b =>
      let sk := sk ++ b
      match trimEncodeT 256 (1281 - sk.length) F 9 8 with
      | none => none
      | some c =>
        let sk := sk ++ c
        if sk.length ≠ 1281 then none else some sk

/-- The encoding of the public key, nist16.c 84-94 and 152-162 (`w = 16`, 1025 bytes), nist.c 84-93 and 152-161 (`w = 14`, 897 bytes). -/
def encodePk (w len : Nat) (h : List Nat) : Option Bytes :=
  match modqEncodeW w (len - 1) h 9 with
  | none => none
  | some b => if b.length ≠ len - 1 then none else some ((0x00 + 9) :: b)

/-- `zknox_crypto_sign_keypair`, nist16.c 27-96, after `keygen` gave `f`, `g`, `F` and `h`: the key is published in NTT form; `some (pk, sk)` is a return of 0. -/
def keypair16 (f g F : List Int) (h : List Nat) : Option (Bytes × Bytes) :=
  let h := toNtt 9 h
  match encodeSk f g F with
  | none => none
  | some sk => match encodePk 16 1025 h with
    | none => none
    | some pk => some (pk, sk)

/-- `crypto_sign_keypair`, nist.c 32-95, after `keygen`. -/
def keypair (f g F : List Int) (h : List Nat) : Option (Bytes × Bytes) :=
  match encodeSk f g F with
  | none => none
  | some sk => match encodePk 14 897 h with
    | none => none
    | some pk => some (pk, sk)

/-- The decoding of the private key in `zknox_crypto_sign`, nist16.c 195-228, `crypto_sign`, nist.c 190-223, and `zknox_crypto_sign_epervier`, epervier16.c 80-107: `(f, g, F, G)`.
`trim_i8_decode` returns the number of bytes it consumed, which does not depend on the data. -/
def decodeSk (sk : Bytes) : Option (List Int × List Int × List Int × List Int) :=
  if sk.getD 0 0 ≠ 0x50 + 9 then none
  else
    let u := 1
    match trimDecodeT 256 9 6 ((sk.drop u).take (1281 - u)) with
    | .error _ => none
    | .ok f =>
      let u := u + outLen 512 6
      match trimDecodeT 256 9 6 ((sk.drop u).take (1281 - u)) with
      | .error _ => none
      | .ok g =>
        let u := u + outLen 512 6
        match trimDecodeT 256 9 8 ((sk.drop u).take (1281 - u)) with
        | .error _ => none
        | .ok F =>
          let u := u + outLen 512 8
          if u ≠ 1281 then none
          else match completePrivate 9 f g F with
            | none => none
            | some G => some (f, g, F, G)

/-! ## Signing -/

/-- `sign_dyn` as a function of the seeded generator, the key and the hashed message. -/
abbrev SignDyn := Shake.Ctx → List Int → List Int → List Int → List Int → List Nat → List Int

/-- The signature encoders: `comp_encode16` into `ZKNOX_CRYPTO_BYTES - 2 - 40 - 1` bytes, nist16.c 274, and `comp_encode` into `CRYPTO_BYTES - 2 - 40 - 1` bytes, nist.c 269. -/
def encSig16 (s : List Int) : Option Bytes := compEncode16 (1067 - 2 - 40 - 1) s 9
def encSig (s : List Int) : Option Bytes := compEncode (some (690 - 2 - 40 - 1)) s

/-- `zknox_crypto_sign` (`enc = encSig16`), nist16.c 172-288, and `crypto_sign` (`enc = encSig`), nist.c 169-283. -/
def signWith (enc : List Int → Option Bytes) (eth : Bool) (fuel : Nat) (signDyn : SignDyn) (nonce seed m sk : Bytes) : Res :=
  match decodeSk sk with
  | none => .fail
  | some (f, g, F, G) =>
    match hashPieces eth [nonce, m] fuel with
    | none => .running
    | some hm =>
      let s := signDyn (Shake.flip (Shake.inject Shake.init seed)) f g F G hm
      match enc s with
      | none => .fail
      | some e =>
        if e.length = 0 then .fail
        else
          let sigLen := e.length + 1
          .done ([(sigLen >>> 8) % 256, sigLen % 256] ++ nonce ++ m ++ ((0x20 + 9) :: e))

/-! ## Opening -/

/-- `to_monty`, nist16.c 291-301. -/
def toMonty (h : List Nat) : List Nat := h.map fun x => x * 4091 % 12289

/-- The public key in Montgomery NTT form, nist16.c 326-334: 16-bit format, already transformed (`modq_decode16` consumes 1024 bytes whatever they are). -/
def key16 (data : Bytes) : Option (List Nat) :=
  match modqDecodeW 16 9 (data.take (1025 - 1)) with
  | .error _ => none
  | .ok h => if outLen 512 16 ≠ 1025 - 1 then none else some (toMonty h)

/-- The public key in Montgomery NTT form, nist.c 313-321: 14-bit format, coefficients. -/
def key14 (data : Bytes) : Option (List Nat) :=
  match modqDecodeW 14 9 (data.take (897 - 1)) with
  | .error _ => none
  | .ok h => if outLen 512 14 ≠ 897 - 1 then none else some (toNttMonty 9 h)

/-- `comp_decode16` with its return value. -/
def decSig16 (data : Bytes) : Option (List Int × Nat) :=
  match compDecode16 9 data with
  | .error _ => none
  | .ok x => some (x, outLen 512 16)

/-- `zknox_crypto_sign_open` (`key = key16`, `dec = decSig16`), nist16.c 304-392, and `crypto_sign_open` (`key = key14`, `dec = compDecode 9`), nist.c 286-379. -/
def openWith (key : Bytes → Option (List Nat)) (dec : Bytes → Option (List Int × Nat)) (eth : Bool) (fuel : Nat) (sm pk : Bytes) : Res :=
  if pk.getD 0 0 ≠ 0x00 + 9 then .fail
  else match key (pk.drop 1) with
  | none => .fail
  | some h =>
    if sm.length < 2 + 40 then .fail
    else
      let sigLen := (sm.getD 0 0 <<< 8) ||| sm.getD 1 0
      if sigLen > sm.length - 2 - 40 then .fail
      else
        let msgLen := sm.length - 2 - 40 - sigLen
        let esig := sm.drop (2 + 40 + msgLen)
        if sigLen < 1 ∨ esig.getD 0 0 ≠ 0x20 + 9 then .fail
        else match dec ((esig.drop 1).take (sigLen - 1)) with
        | none => .fail
        | some (sig, len) =>
          if len ≠ sigLen - 1 then .fail
          else match hashPieces eth [(sm.drop 2).take (40 + msgLen)] fuel with
          | none => .running
          | some hm => if verifyRaw 9 hm sig h then .done ((sm.drop (2 + 40)).take msgLen) else .fail

/-- `zknox_crypto_sign_open`, nist16.c 304-392. -/
def signOpen16 : Bool → Nat → Bytes → Bytes → Res := openWith key16 decSig16

/-- `crypto_sign_open`, nist.c 286-379. -/
def signOpen : Bool → Nat → Bytes → Bytes → Res := openWith key14 (compDecode 9)

/-! ## Epervier -/

/-- `zknox_pk_epervier`, epervier16.c 27-57: the result is the new key. -/
def pkEpervier (pk : Bytes) : Option Bytes :=
  if pk.getD 0 0 ≠ 0x00 + 9 then none
  else match modqDecodeW 16 9 ((pk.drop 1).take (1025 - 1)) with
  | .error _ => none
  | .ok h => encodePk 16 1025 (toNtt 9 h)

/-- The loop `do … while (!is_invertible(s2))`, epervier16.c 143-147: `sign` is one call of `sign_dyn` (new generator state, `s2`, and `s1` left in `tmp`). -/
def signLoop (sign : Shake.Ctx → Shake.Ctx × List Int × List Int) : Nat → Shake.Ctx → Option (List Int × List Int)
  | 0, _ => none
  | fuel + 1, sc =>
    let (sc, s2, s1) := sign sc
    if isInvertible 9 s2 then some (s1, s2) else signLoop sign fuel sc

/-- `zknox_crypto_sign_epervier`, epervier16.c 59-188; `fuel` bounds the hash, `loops` the loop around `sign_dyn`. -/
def signEpervier (fuel loops : Nat) (signDyn : List Int → List Int → List Int → List Int → List Nat → Shake.Ctx → Shake.Ctx × List Int × List Int) (nonce seed m sk : Bytes) : Res :=
  match decodeSk sk with
  | none => .fail
  | some (f, g, F, G) =>
    match hashPieces false [nonce, m] fuel with
    | none => .running
    | some hm =>
      match signLoop (signDyn f g F G hm) loops (Shake.flip (Shake.inject Shake.init seed)) with
      | none => .running
      | some (s1, s2) =>
        match compEncode16 1024 s1 9 with
        | none => .fail
        | some e1 =>
          match compEncode16 1024 s2 9 with
          | none => .fail
          | some e2 =>
            let hint := hintEpervier 9 s2
            let sigLen := e1.length + 1 + e2.length + 1 + 2
            .done ([(sigLen >>> 8) % 256, sigLen % 256] ++ nonce ++ m ++ ((0x20 + 9) :: e1 ++ (0x20 + 9) :: e2) ++ [(hint >>> 8) % 256, hint % 256])

/-- `zknox_crypto_sign_open_epervier`, epervier16.c 190-272.  The function reads `esig[0 … 2049]` without comparing 2050 to the length of the input: `mem` is what lies in memory after `sm`. -/
def signOpenEpervier (fuel : Nat) (mem sm pk : Bytes) : Res :=
  if pk.getD 0 0 ≠ 0x00 + 9 then .fail
  else match modqDecodeW 16 9 ((pk.drop 1).take (1025 - 1)) with
  | .error _ => .fail
  | .ok h =>
    if sm.length < 2 + 40 then .fail
    else
      let sigLen := (sm.getD 0 0 <<< 8) ||| sm.getD 1 0
      if sigLen > sm.length - 2 - 40 then .fail
      else
        let msgLen := sm.length - 2 - 40 - sigLen
        let esig := (sm ++ mem).drop (2 + 40 + msgLen)
        if sigLen < 1 ∨ esig.getD 0 0 ≠ 0x20 + 9 ∨ esig.getD 1025 0 ≠ 0x20 + 9 then .fail
        else match compDecode16 9 ((esig.drop 1).take 1024) with
        | .error _ => .fail
        | .ok s1 =>
          match compDecode16 9 ((esig.drop (1 + 1024 + 1)).take 1024) with
          | .error _ => .fail
          | .ok s2 =>
            match hashPieces false [(sm.drop 2).take (40 + msgLen)] fuel with
            | none => .running
            | some hm =>
              let r := verifyRecoverEpervier 9 hm s1 s2
              if !r.2 then .fail
              else if (List.range 512).any (fun i => decide (h[i]! ≠ r.1[i]!)) then .fail
              else .done ((sm.drop (2 + 40)).take msgLen)

end Verif.CRef
