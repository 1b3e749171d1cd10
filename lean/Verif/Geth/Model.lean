import Verif.CRef.Process

/-! # The Go wrapper `falcon/falcon.go` and the precompile `geth/contracts.go`

The Go build (falcon/makefile 8-19) compiles `nist.c` without `-DETHFALCON`: the message is hashed with SHAKE256 (`eth = false`).  A Go slice handed to C is a pointer to its first element; C reads on
in memory when it wants more bytes than the slice has: `behind` is what lies there.  A write beyond a Go array is the outcome `corrupt`: the process state is then undefined and nothing more is said.
Indexing an empty slice is the outcome `panic`, which nothing in the wrapper or in the precompile recovers from. -/

namespace Verif.Geth

open Verif.CRef (Res SignDyn signOpen encSig)
open Verif.CRef.Kat (Ctx signC keypairC)

/-- The outcome of a Go function that returns `(α, error)`; `running` when the fuel of a loop was not enough. -/
inductive Out (α : Type) where
  | running
  | panic
  | corrupt
  | error
  | ok (a : α)
deriving DecidableEq

/-- `VerifySignature`, falcon/falcon.go 58-77: `&signature[0]` and `&pk[0]` panic on empty slices (63); `crypto_sign_open` copies the message of a signature it accepts into the array `m` of 1024 bytes
(59, nist.c 374-378); then the recovered message is compared (73). -/
def verifySignature (fuel : Nat) (sig msg pk behind : Bytes) : Out Bool :=
  if sig = [] then .panic
  else if pk = [] then .panic
  else match signOpen false fuel sig (pk ++ behind) with
    | .running => .running
    | .fail => .error
    | .done m => if 1024 < m.length then .corrupt else .ok (decide (m = msg))

/-- `SignMessage`, falcon/falcon.go 42-56: `&message[0]` and `&sk[0]` panic on empty slices (46); `crypto_sign` writes the signed message into the array `sm` of 1330 bytes (43). -/
def signMessage (fuel : Nat) (signDyn : SignDyn) (c : Ctx) (message sk behind : Bytes) : Out Bytes × Ctx :=
  if message = [] then (.panic, c)
  else if sk = [] then (.panic, c)
  else
    let (r, c) := signC encSig false fuel signDyn c message (sk ++ behind)
    match r with
    | .running => (.running, c)
    | .fail => (.error, c)
    | .done sm => if 1330 < sm.length then (.corrupt, c) else (.ok sm, c)

/-- `GenerateKeypair`, falcon/falcon.go 26-40; `kp` is the key generation of nist.c from its seed. -/
def generateKeypair (kp : Bytes → CRef.Kg.KeyRes) (c : Ctx) : Out (Bytes × Bytes) × Ctx :=
  let (r, c) := keypairC kp c
  match r with
  | .running => (.running, c)
  | .fail => (.error, c)
  | .done pk sk => (.ok (pk.take 897, sk.take 1281), c)

/-- `(*falconvrfy).RequiredGas`, geth/contracts.go 1190-1192. -/
def requiredGas (_input : Bytes) : Nat := 3000

/-- `(*falconvrfy).Run`, geth/contracts.go 1202-1241.  `unpack` is `abi.Arguments.Unpack` of go-ethereum for three values of type `bytes` (not part of the repository): `none` for its error.  The
printing (1210, 1224-1226) is left out.  `common.LeftPadBytes` (1240) puts zeros before the byte. -/
def run (unpack : Bytes → Option (List Bytes)) (fuel : Nat) (input behind : Bytes) : Out Bytes :=
  match unpack input with
  | none => .error
  | some decoded =>
    if decoded.length ≠ 3 then .error
    else match verifySignature fuel (decoded.getD 0 []) (decoded.getD 1 []) (decoded.getD 2 []) behind with
      | .running => .running
      | .panic => .panic
      | .corrupt => .corrupt
      | .error => .ok (List.replicate 31 0 ++ [0])
      | .ok b => .ok (List.replicate 31 0 ++ [if b then 1 else 0])

end Verif.Geth
