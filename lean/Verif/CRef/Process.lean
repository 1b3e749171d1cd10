import Verif.CRef.KatRng
import Verif.CRef.KgApi

/-! # A process that links the C library with `katrng.c`

The Go bindings (falcon/makefile 8-19: every `.c` file of `src` goes into `libfalcon.a`) and the JavaScript bindings (falcon/makefile 21-36) take `randombytes` from `katrng.c`.  Neither `falcon.go`
nor `nist.c`, `nist16.c` calls `randombytes_init`, and the JavaScript build does not export it, so the generator of such a process starts as `Ctx.zero`. -/

namespace Verif.CRef.Kat

/-- `crypto_sign`, nist.c 169-283, and `zknox_crypto_sign`, nist16.c 172-288, with their two calls of `randombytes` (nist.c 234 and 256, nist16.c 239 and 261).  A private key that does not decode
is refused before the first of them.  If the hash does not finish (`running`) the state is of no account. -/
def signC (enc : List Int → Option Bytes) (eth : Bool) (fuel : Nat) (signDyn : SignDyn) (c : Ctx) (m sk : Bytes) : Res × Ctx :=
  match decodeSk sk with
  | none => (.fail, c)
  | some _ =>
    let (nonce, c) := randombytes c 40
    let (seed, c) := randombytes c 48
    (signWith enc eth fuel signDyn nonce seed m sk, c)

/-- `crypto_sign_keypair`, nist.c 28-95, and `zknox_crypto_sign_keypair`, nist16.c 29-95: a seed of 48 bytes, then `kp`, the code shared with `…_from_seed` (`Kg.keypairWith`). -/
def keypairC (kp : Bytes → Kg.KeyRes) (c : Ctx) : Kg.KeyRes × Ctx :=
  let (seed, c) := randombytes c 48
  (kp seed, c)

/-- What a program can ask of the library. -/
inductive Call where
  | keypair
  | keypairFromSeed (seed : Bytes)
  | sign (m sk : Bytes)
  | verify (sm pk : Bytes)

inductive Reply where
  | key (k : Kg.KeyRes)
  | signed (r : Res)
  | opened (r : Res)

/-- The library as a program sees it: key generation from a seed, with and without the length check of `…_from_seed`, signing and opening. -/
structure Lib where
  kp : Bytes → Kg.KeyRes
  fromSeed : Bytes → Kg.KeyRes
  enc : List Int → Option Bytes
  eth : Bool
  fuel : Nat
  signDyn : SignDyn
  opens : Bytes → Bytes → Res

/-- One call. -/
def step (L : Lib) (c : Ctx) : Call → Reply × Ctx
  | .keypair => let (k, c) := keypairC L.kp c; (.key k, c)
  | .keypairFromSeed seed => (.key (L.fromSeed seed), c)
  | .sign m sk => let (r, c) := signC L.enc L.eth L.fuel L.signDyn c m sk; (.signed r, c)
  | .verify sm pk => (.opened (L.opens sm pk), c)

/-- A sequence of calls. -/
def calls (L : Lib) (c : Ctx) : List Call → List Reply × Ctx
  | [] => ([], c)
  | x :: xs =>
    let (r, c) := step L c x
    let (rs, c) := calls L c xs
    (r :: rs, c)

/-- The replies of a process. -/
def process (L : Lib) (xs : List Call) : List Reply := (calls L Ctx.zero xs).1

end Verif.CRef.Kat
