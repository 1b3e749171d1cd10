import Verif.CRef.Shake

/-! # The generator of the C signer: `falcon/nistfalcon/src/rng.c` and the inline functions of `inner.h`

32-bit and 64-bit words are modelled by `Nat`, additions reduced as in C; the machine is little-endian (`*(uint64_t *)(p->state.d + 48)` and the two 32-bit words there are the same bytes). -/

namespace Verif.CRef.Prng

/-- `prng`, inner.h 541-554: the buffer `buf.d`, the read position `ptr`, the key and IV (twelve words of `state.d`), the block counter (bytes 48-55 of `state.d`). -/
structure Prng where
  buf : Bytes
  ptr : Nat
  s : List Nat
  cc : Nat
deriving DecidableEq, Repr

/-- `CW`, rng.c 84-86. -/
def CW : List Nat := [0x61707865, 0x3320646e, 0x79622d32, 0x6b206574]

/-- `(x << n) | (x >> (32 - n))` on 32-bit words. -/
def rotl (x n : Nat) : Nat := (x <<< n) % 2 ^ 32 ||| x >>> (32 - n)

/-- `QROUND`, rng.c 107-120, statement by statement. -/
def qround (st : List Nat) (a b c d : Nat) : List Nat :=
  let st := st.set a ((st.getD a 0 + st.getD b 0) % 2 ^ 32)
  let st := st.set d (st.getD d 0 ^^^ st.getD a 0)
  let st := st.set d (rotl (st.getD d 0) 16)
  let st := st.set c ((st.getD c 0 + st.getD d 0) % 2 ^ 32)
  let st := st.set b (st.getD b 0 ^^^ st.getD c 0)
  let st := st.set b (rotl (st.getD b 0) 12)
  let st := st.set a ((st.getD a 0 + st.getD b 0) % 2 ^ 32)
  let st := st.set d (st.getD d 0 ^^^ st.getD a 0)
  let st := st.set d (rotl (st.getD d 0) 8)
  let st := st.set c ((st.getD c 0 + st.getD d 0) % 2 ^ 32)
  let st := st.set b (st.getD b 0 ^^^ st.getD c 0)
  st.set b (rotl (st.getD b 0) 7)

/-- The body of the loop over `i`, rng.c 122-129. -/
def double (st : List Nat) : List Nat :=
  let st := qround st 0 4 8 12
  let st := qround st 1 5 9 13
  let st := qround st 2 6 10 14
  let st := qround st 3 7 11 15
  let st := qround st 0 5 10 15
  let st := qround st 1 6 11 12
  let st := qround st 2 7 8 13
  qround st 3 4 9 14

/-- One block, rng.c 97-144: `memcpy` of the constants and of the twelve words, the counter xored into words 14 and 15, ten double rounds, the final additions. -/
def block (s : List Nat) (cc : Nat) : List Nat :=
  let st := CW ++ s
  let st := st.set 14 (st.getD 14 0 ^^^ cc % 2 ^ 32)
  let st := st.set 15 (st.getD 15 0 ^^^ cc >>> 32)
  let st := (List.range 10).foldl (fun st _ => double st) st
  let st := (List.range 4).foldl (fun st v => st.set v ((st.getD v 0 + CW.getD v 0) % 2 ^ 32)) st
  let st := (List.range' 4 10).foldl (fun st v => st.set v ((st.getD v 0 + s.getD (v - 4) 0) % 2 ^ 32)) st
  let st := st.set 14 ((st.getD 14 0 + (s.getD 10 0 ^^^ cc % 2 ^ 32)) % 2 ^ 32)
  st.set 15 ((st.getD 15 0 + (s.getD 11 0 ^^^ cc >>> 32)) % 2 ^ 32)

/-- The stores of block `u`, rng.c 151-160. -/
def store (buf : Bytes) (u : Nat) (st : List Nat) : Bytes :=
  (List.range 16).foldl (fun buf v =>
    let w := st.getD v 0
    let buf := buf.set ((u <<< 2) + (v <<< 5) + 0) (w % 256)
    let buf := buf.set ((u <<< 2) + (v <<< 5) + 1) ((w >>> 8) % 256)
    let buf := buf.set ((u <<< 2) + (v <<< 5) + 2) ((w >>> 16) % 256)
    buf.set ((u <<< 2) + (v <<< 5) + 3) ((w >>> 24) % 256)) buf

/-- The body of the loop over `u`, rng.c 95-161: one block, counter increment, stores. -/
def refillStep (s : List Nat) (x : Bytes × Nat) (u : Nat) : Bytes × Nat := (store x.1 u (block s x.2), (x.2 + 1) % 2 ^ 64)

/-- `prng_refill`, rng.c 80-166. -/
def refill (p : Prng) : Prng :=
  let x := (List.range 8).foldl (refillStep p.s) (p.buf, p.cc)
  { p with buf := x.1, cc := x.2, ptr := 0 }

/-- Word `i` of the 56 bytes, rng.c 52-55. -/
def word (tmp : Bytes) (i : Nat) : Nat :=
  tmp.getD (i <<< 2) 0 ||| tmp.getD ((i <<< 2) + 1) 0 <<< 8 ||| tmp.getD ((i <<< 2) + 2) 0 <<< 16 ||| tmp.getD ((i <<< 2) + 3) 0 <<< 24

/-- `prng_init`, rng.c 38-62, after the extraction of the 56 bytes `tmp`; `buf` is what the buffer held before (it is not initialised). -/
def initWith (buf tmp : Bytes) : Prng :=
  let s := (List.range 14).map (word tmp)
  let tl := s.getD 12 0
  let th := s.getD 13 0
  refill { buf := buf, ptr := 0, s := s.take 12, cc := (tl + th <<< 32) % 2 ^ 64 }

/-- `prng_init`, rng.c 38-62: the seed is extracted from the SHAKE context. -/
def init (buf : Bytes) (c : Shake.Ctx) : Prng × Shake.Ctx :=
  let (c, tmp) := Shake.extract c 56
  (initWith buf tmp, c)

/-- `prng_get_u64`, inner.h 577-600. -/
def getU64 (p : Prng) : Nat × Prng :=
  let p := if p.ptr ≥ 512 - 9 then refill p else p
  let u := p.ptr
  ((List.range 8).foldl (fun r i => r ||| p.buf.getD (u + i) 0 <<< (8 * i)) 0, { p with ptr := u + 8 })

/-- `prng_get_u8`, inner.h 605-616. -/
def getU8 (p : Prng) : Nat × Prng :=
  let v := p.buf.getD p.ptr 0
  let p := { p with ptr := p.ptr + 1 }
  (v, if p.ptr = 512 then refill p else p)

/-- The loop of `prng_get_bytes`, rng.c 175-188.  Every step copies at least one byte (`ptr < 512`), so `len` steps suffice. -/
def getBytesLoop : Nat → Prng → Nat → Bytes → Bytes × Prng
  | 0, p, _, out => (out, p)
  | fuel + 1, p, len, out =>
    if len > 0 then
      let clen := 512 - p.ptr
      let clen := if clen > len then len else clen
      let out := out ++ p.buf.take clen
      let p := { p with ptr := p.ptr + clen }
      let p := if p.ptr = 512 then refill p else p
      getBytesLoop fuel p (len - clen) out
    else (out, p)

/-- `prng_get_bytes`, rng.c 168-189. -/
def getBytes (p : Prng) (len : Nat) : Bytes × Prng := getBytesLoop len p len []

/-- The two requests the signer makes. -/
inductive Req
  | u64
  | u8
deriving DecidableEq, Repr

/-- A history of requests (`gaussian0_sampler`, `BerExp` and `sampler` of sign.c make no others). -/
def run (p : Prng) : List Req → List Nat × Prng
  | [] => ([], p)
  | .u64 :: rs =>
    let (v, p) := getU64 p
    let (vs, p) := run p rs
    (v :: vs, p)
  | .u8 :: rs =>
    let (v, p) := getU8 p
    let (vs, p) := run p rs
    (v :: vs, p)

end Verif.CRef.Prng
