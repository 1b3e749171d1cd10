import Verif.CRef.Aes

/-! # The generators of `falcon/nistfalcon/src/katrng.c`: CTR_DRBG (`randombytes`) and the seed expander

The global `DRBG_ctx` is passed as a value.  `int` counters are naturals (overflow of `reseed_counter` after `2^31` requests and of `i` in requests of `2^31` bytes is not modelled). -/

namespace Verif.CRef.Kat

open Aes (ecb)

/-- `AES256_CTR_DRBG_struct`, katrng.h 26-30. -/
structure Ctx where
  key : Bytes
  V : Bytes
  reseedCounter : Nat
deriving DecidableEq

/-- `DRBG_ctx`, katrng.c 17, as it is when the program starts: a C object of static storage duration is zero. -/
def Ctx.zero : Ctx := ⟨List.replicate 32 0, List.replicate 16 0, 0⟩

/-- The loops `for (j = …; j >= lo; j --)` that add one to a big-endian counter, katrng.c 166-173, 200-207 (`lo = 0`) and 93-100 (`lo = 12`); `n` bytes from `lo + n - 1` down. -/
def incLoop (lo : Nat) : Nat → Bytes → Bytes
  | 0, V => V
  | n + 1, V => if V[lo + n]! = 0xff then incLoop lo n (V.set (lo + n) 0x00) else V.set (lo + n) (V[lo + n]! + 1)

/-- `AES256_CTR_DRBG_Update`, katrng.c 191-217. -/
def update (provided : Option Bytes) (key V : Bytes) : Bytes × Bytes :=
  let (V, temp) := (List.range 3).foldl (fun (st : Bytes × Bytes) _ =>
    let V := incLoop 0 16 st.1
    (V, st.2 ++ ecb key V)) (V, [])
  let temp := match provided with
    | none => temp
    | some d => (List.range 48).map fun i => temp[i]! ^^^ d[i]!
  (temp.take 32, (temp.drop 32).take 16)

/-- `randombytes_init`, katrng.c 140-156. -/
def randombytesInit (entropy : Bytes) (personalization : Option Bytes) : Ctx :=
  let seed := entropy.take 48
  let seed := match personalization with
    | none => seed
    | some p => (List.range 48).map fun i => seed[i]! ^^^ p[i]!
  let (key, V) := update (some seed) (List.replicate 32 0x00) (List.replicate 16 0x00)
  ⟨key, V, 1⟩

/-- The loop of `randombytes`, katrng.c 164-184; every pass takes at least one byte off `xlen`, so `xlen` passes suffice. -/
def rbLoop (key : Bytes) : Nat → Bytes → Bytes → Nat → Bytes × Bytes
  | 0, V, x, _ => (x, V)
  | fuel + 1, V, x, xlen =>
    if xlen > 0 then
      let V := incLoop 0 16 V
      let block := ecb key V
      if xlen > 15 then rbLoop key fuel V (x ++ block.take 16) (xlen - 16)
      else rbLoop key fuel V (x ++ block.take xlen) 0
    else (x, V)

/-- `randombytes`, katrng.c 158-189. -/
def randombytes (c : Ctx) (xlen : Nat) : Bytes × Ctx :=
  let (x, V) := rbLoop c.key xlen c.V [] xlen
  let (key, V) := update none c.key V
  (x, ⟨key, V, c.reseedCounter + 1⟩)

/-- A sequence of requests. -/
def run (c : Ctx) : List Nat → List Bytes × Ctx
  | [] => ([], c)
  | k :: ks =>
    let (b, c) := randombytes c k
    let (bs, c) := run c ks
    (b :: bs, c)

/-! ## The seed expander -/

/-- `AES_XOF_struct`, katrng.h 18-24. -/
structure Xof where
  buffer : Bytes
  pos : Nat
  remaining : Nat
  key : Bytes
  ctr : Bytes
deriving DecidableEq

/-- `seedexpander_init`, katrng.c 28-54: `none` is `RNG_BAD_MAXLEN`. -/
def seedexpanderInit (seed diversifier : Bytes) (maxlen : Nat) : Option Xof :=
  if maxlen >>> 16 ≥ 0x10000 then none
  else
    let c11 := maxlen % 256
    let m := maxlen >>> 8
    let c10 := m % 256
    let m := m >>> 8
    let c9 := m % 256
    let m := m >>> 8
    let c8 := m % 256
    some ⟨List.replicate 16 0x00, 16, maxlen, seed.take 32, diversifier.take 8 ++ [c8, c9, c10, c11] ++ List.replicate 4 0x00⟩

/-- The loop of `seedexpander`, katrng.c 76-102, on the output so far; every second pass takes at least one byte off `xlen`, so `2 * xlen` passes suffice. -/
def seLoop : Nat → Xof → Bytes → Nat → Bytes × Xof
  | 0, c, x, _ => (x, c)
  | fuel + 1, c, x, xlen =>
    if xlen > 0 then
      if xlen ≤ 16 - c.pos then (x ++ (c.buffer.drop c.pos).take xlen, { c with pos := c.pos + xlen })
      else
        let x := x ++ (c.buffer.drop c.pos).take (16 - c.pos)
        let xlen := xlen - (16 - c.pos)
        let buffer := ecb c.key c.ctr
        let ctr := incLoop 12 4 c.ctr
        seLoop fuel { c with buffer := buffer, pos := 0, ctr := ctr } x xlen
    else (x, c)

/-- `seedexpander`, katrng.c 63-105: `none` is `RNG_BAD_REQ_LEN` (a null output pointer is not modelled). -/
def seedexpander (c : Xof) (xlen : Nat) : Option (Bytes × Xof) :=
  if xlen ≥ c.remaining then none
  else some (seLoop (2 * xlen) { c with remaining := c.remaining - xlen } [] xlen)

/-- A sequence of requests; a refused one leaves the state unchanged. -/
def seRun (c : Xof) : List Nat → List (Option Bytes)
  | [] => []
  | k :: ks => match seedexpander c k with
    | none => none :: seRun c ks
    | some (b, c) => some b :: seRun c ks

end Verif.CRef.Kat
