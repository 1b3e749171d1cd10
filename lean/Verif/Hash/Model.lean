import Verif.Hash.Prng
import Verif.Keccak.Model
import Verif.Keccak.SolModel

/-! # `hash_to_point` in Python and in the contracts -/

namespace Verif.Hash

/-- The methods `hash_to_point` calls on an XOF class (falcon.py 198-209): `new`, `update`, `flip`, `read`; `saltMap` is the replacement of the salt by its
Blake2s digest (falcon.py 195-197), the identity for the other classes. -/
structure Xof (S : Type) where
  new : S
  update : S → Bytes → Except Err S
  flip : S → Except Err S
  read : S → Nat → Except Err (S × Bytes)
  saltMap : Bytes → Bytes := id

/-- `SHAKE`, shake.py 4-20. -/
def shakeXof : Xof Keccak.Ctx where
  new := Keccak.Ctx.new
  update c b := .ok (Keccak.absorb Keccak.F1600 Keccak.shakeRate c b)
  flip c := .ok (Keccak.pad Keccak.F1600 Keccak.shakeRate Keccak.shakeDs c)
  read c n := .ok (Keccak.squeeze Keccak.F1600 Keccak.shakeRate c n)

/-- `KeccakPRNG`, keccak_prng.py: buffer of 4096 bytes; `H` is Keccak-256. -/
def keccakPrng (H : Bytes → Bytes) : Xof Prng where
  new := Prng.new 4096
  update := Prng.inject 4096
  flip := Prng.flip H
  read := Prng.extract H

/-- `Blake2sPRNG`, blake2s_prng.py: buffer of 1024 bytes; `B` is Blake2s with 32 bytes of output. -/
def blake2sPrng (B : Bytes → Bytes) : Xof Prng where
  new := Prng.new 1024
  update := Prng.inject 1024
  flip := Prng.flip B
  read := Prng.extract B
  saltMap := B

/-- `KeccaXOF`, keccaxof.py 5-9.  `tmp` is kept as bytes: the code keeps it as a string with two hexadecimal digits per byte and cuts it at even positions. -/
structure KXof where
  input : List Bytes
  last : Option Bytes
  tmp : Bytes
deriving DecidableEq

/-- `KeccaXOF.update`, keccaxof.py 15-18. -/
def KXof.update (c : KXof) (data : Bytes) : Except Err KXof :=
  if c.last.isSome then .error .valueError else .ok { c with input := c.input ++ [data] }

/-- The loop of `read`, keccaxof.py 29-33 (`fuel` ≥ number of missing bytes is enough). -/
def KXof.refill (H : Bytes → Bytes) (k : Nat) : Nat → KXof → KXof
  | 0, c => c
  | fuel + 1, c =>
    if c.tmp.length * 2 < k * 2 then
      let last := H (c.last.getD [])
      KXof.refill H k fuel { c with last := some last, tmp := c.tmp ++ last }
    else c

/-- `int(buff, 16).to_bytes(2, 'big')`, keccaxof.py 37: an empty string raises `ValueError`, a value of more than 16 bits raises `OverflowError`. -/
def toTwoBytes (b : Bytes) : Except Err Bytes :=
  if b.length = 0 then .error .valueError
  else
    let v := b.foldl (fun a x => a * 256 + x) 0
    if v < 65536 then .ok [v / 256, v % 256] else .error .valueError

/-- The first call of `read`, keccaxof.py 22-27. -/
def KXof.start (H : Bytes → Bytes) (c : KXof) : KXof :=
  match c.last with
  | none => { c with last := some (H c.input.flatten), tmp := H c.input.flatten }
  | some _ => c

/-- `KeccaXOF.read`, keccaxof.py 20-37 (`encode_packed` of `bytes` items is concatenation). -/
def KXof.read (H : Bytes → Bytes) (c : KXof) (k : Nat) : Except Err (KXof × Bytes) :=
  let c := KXof.refill H k k (c.start H)
  match toTwoBytes (c.tmp.take k) with
  | .error e => .error e
  | .ok out => .ok ({ c with tmp := c.tmp.drop k }, out)

/-- `KeccaXOF` as an XOF class; `flip` does nothing (keccaxof.py 39-40). -/
def keccaXof (H : Bytes → Bytes) : Xof KXof where
  new := ⟨[], none, []⟩
  update := KXof.update
  flip c := .ok c
  read := KXof.read H

/-- The `while` loop of `hash_to_point`, falcon.py 206-213; `none` means that `fuel` iterations were not enough.
(`k * q = 5 * 12289 = 61445`; `hashed[i] = …` with `i < n` is in range.) -/
def hashLoop {S : Type} (X : Xof S) (n : Nat) : Nat → S → Nat → List Nat → Option (Except Err (List Nat))
  | 0, _, _, _ => none
  | fuel + 1, s, i, hashed =>
    if i < n then
      match X.read s 2 with
      | .error e => some (.error e)
      | .ok (s, twobytes) =>
        let elt := (twobytes.getD 0 0 <<< 8) + twobytes.getD 1 0
        if elt < 65536 / 12289 * 12289 then hashLoop X n fuel s (i + 1) (hashed.set i (elt % 12289))
        else hashLoop X n fuel s i hashed
    else some (.ok hashed)

/-- `hash_to_point`, falcon.py 186-214 (the test `q > 2^16` is constantly false). -/
def hashToPoint {S : Type} (X : Xof S) (n : Nat) (message salt : Bytes) (fuel : Nat) : Option (Except Err (List Nat)) :=
  match (do X.flip (← X.update (← X.update X.new (X.saltMap salt)) message) : Except Err S) with
  | .error e => some (.error e)
  | .ok s => hashLoop X n fuel s 0 (List.replicate n 0)

/-! ## Contracts -/

namespace Sol

/-- The 256-bit word of a 32-byte string. -/
def word (b : Bytes) : Nat := b.foldl (fun a x => a * 256 + x) 0

/-- The inner loop of `hashToPointEVM`, ZKNOX_HashToPoint.sol 38-46: `j = 240, 224, …, 0` (at `0 - 16` the unsigned comparison ends the loop). -/
def evmInner (buffer : Nat) : List Nat → Nat → List Nat → Nat × List Nat
  | [], i, out => (i, out)
  | j :: js, i, out =>
    let chunk := (buffer >>> j) &&& 0xffff
    if chunk < 61445 then
      if i + 1 = 512 then (i + 1, out.set i (chunk % 12289)) else evmInner buffer js (i + 1) (out.set i (chunk % 12289))
    else evmInner buffer js i out

/-- The values of `j`. -/
def evmShifts : List Nat := [240, 224, 208, 192, 176, 160, 144, 128, 112, 96, 80, 64, 48, 32, 16, 0]

/-- The first eight bytes of a memory word. -/
def top8 (c : Nat) : Bytes := (List.range 8).map fun i => c / 256 ^ (31 - i) % 256

/-- The outer loop of `hashToPointEVM`, ZKNOX_HashToPoint.sol 36-50.  `ctr8` is what is in memory at `extendedState + 64 … + 71`; `counter` the variable. -/
def evmLoop (H : Bytes → Bytes) (state : Bytes) : Nat → Nat → Bytes → Nat → List Nat → Option (List Nat)
  | 0, _, _, _, _ => none
  | fuel + 1, counter, ctr8, i, out =>
    if i < 512 then
      let buffer := word (H (state ++ ctr8))
      let (i, out) := evmInner buffer evmShifts i out
      let counter := (counter + 6277101735386680763835789423207666416102355444464034512896) % 2 ^ 256
      evmLoop H state fuel counter (top8 counter) i out
    else some out

/-- `hashToPointEVM`, ZKNOX_HashToPoint.sol 22-52; `H` is `keccak256`. -/
def hashToPointEVM (H : Bytes → Bytes) (salt msgHash : Bytes) (fuel : Nat) : Option (List Nat) :=
  evmLoop H (H (salt ++ msgHash)) fuel 0 (List.replicate 8 0) 0 (List.replicate 512 0)

/-- `splitToHex`, ZKNOX_HashToPoint.sol 58-68. -/
def splitToHex (x : Nat) : List Nat := (List.range 16).map fun i => (x >>> ((15 - i) <<< 4)) &&& 0xffff

/-- The loop of `hashToPointNIST`, ZKNOX_HashToPoint.sol 87-99. -/
def nistLoop : Nat → Keccak.Sol.Ctx → Bytes → Nat → Nat → List Nat → Option (List Nat)
  | 0, _, _, _, _, _ => none
  | fuel + 1, ctx, tmp, j, i, hashed =>
    if i < 512 then
      let (ctx, tmp, j) := if j = 136 then ((Keccak.Sol.shakeSqueeze ctx 136).1, (Keccak.Sol.shakeSqueeze ctx 136).2, 0) else (ctx, tmp, j)
      let dibytes := tmp.getD (j + 1) 0 + tmp.getD j 0 <<< 8
      if dibytes < 61445 then nistLoop fuel ctx tmp (j + 2) (i + 1) (hashed.set i (dibytes % 12289))
      else nistLoop fuel ctx tmp (j + 2) i hashed
    else some hashed

/-- `hashToPointNIST`, ZKNOX_HashToPoint.sol 76-103. -/
def hashToPointNIST (salt msgHash : Bytes) (fuel : Nat) : Option (List Nat) :=
  let ctx := Keccak.Sol.shakePad (Keccak.Sol.shakeUpdate Keccak.Sol.Ctx.init (salt ++ msgHash))
  nistLoop fuel (Keccak.Sol.shakeSqueeze ctx 136).1 (Keccak.Sol.shakeSqueeze ctx 136).2 0 0 (List.replicate 512 0)

/-- The loop of `hashToPointTETRATION`, ZKNOX_HashToPoint.sol 119-131. -/
def tetrLoop (H : Bytes → Bytes) : Nat → Bytes → List Nat → Nat → Nat → List Nat → Option (List Nat)
  | 0, _, _, _, _, _ => none
  | fuel + 1, tmp, sample, j, i, hashed =>
    if i < 512 then
      let (tmp, sample, j) := if j = 16 then (H tmp, splitToHex (word (H tmp)), 0) else (tmp, sample, j)
      if sample.getD j 0 < 61445 then tetrLoop H fuel tmp sample (j + 1) (i + 1) (hashed.set i (sample.getD j 0 % 12289))
      else tetrLoop H fuel tmp sample (j + 1) i hashed
    else some hashed

/-- `hashToPointTETRATION`, ZKNOX_HashToPoint.sol 112-134. -/
def hashToPointTETRATION (H : Bytes → Bytes) (salt msgHash : Bytes) (fuel : Nat) : Option (List Nat) :=
  tetrLoop H fuel (H (msgHash ++ salt)) (splitToHex (word (H (msgHash ++ salt)))) 0 0 (List.replicate 512 0)

end Sol

end Verif.Hash
