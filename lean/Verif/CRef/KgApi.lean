import Verif.CRef.Keygen
import Verif.CRef.Api

/-! # Key pairs from a seed

Models the entry points `crypto_sign_keypair_from_seed` (`nist.c` 95-161) and `zknox_crypto_sign_keypair_from_seed` (`nist16.c` 95-162); `crypto_sign_keypair` and `zknox_crypto_sign_keypair` are the
same on 48 bytes of `randombytes`. -/

namespace Verif.CRef.Kg

/-- The outcome of a call: `running` when the fuel of a loop was not enough, `fail` the return code −1, `done pk sk` the return code 0. -/
inductive KeyRes where
  | running
  | fail
  | done (pk sk : Bytes)
deriving DecidableEq

/-- The part both entry points share: the SHAKE256 context of the seed, nist16.c 121-123 and nist.c 117-119, `keygen` in degree 512, and the encoding `enc`, nist16.c 125-162 and nist.c 121-161. -/
def keypairWith (enc : List Int → List Int → List Int → List Nat → Option (Bytes × Bytes)) (solver : Solver) (mem : List Nat) (orth : List Int → List Int → Bool) (draws fuel : Nat) (seed : Bytes) :
    KeyRes :=
  match keygen getRngU64 solver mem orth 9 draws fuel (Shake.flip (Shake.inject Shake.init seed)) with
  | none => .running
  | some (f, g, F, _, h) => match enc f g F h with
    | none => .fail
    | some (pk, sk) => .done pk sk

/-- `zknox_crypto_sign_keypair_from_seed`, nist16.c 95-162. -/
def keypairFromSeed16 (solver : Solver) (mem : List Nat) (orth : List Int → List Int → Bool) (draws fuel : Nat) (seed : Bytes) : KeyRes :=
  if seed.length < 32 then .fail else keypairWith keypair16 solver mem orth draws fuel seed

/-- `crypto_sign_keypair_from_seed`, nist.c 95-161. -/
def keypairFromSeed (solver : Solver) (mem : List Nat) (orth : List Int → List Int → Bool) (draws fuel : Nat) (seed : Bytes) : KeyRes :=
  if seed.length < 32 then .fail else keypairWith keypair solver mem orth draws fuel seed

end Verif.CRef.Kg
