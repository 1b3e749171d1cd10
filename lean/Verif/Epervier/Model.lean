import Verif.Contract.Model
import Verif.Falcon.Model
import Verif.Keccak.Model
import Verif.Keccak.Spec

/-! # Key recovery: `ZKNOX_epervier.sol`, `ZKNOX_ethepervier.sol`, `falcon_epervier.py`, `falcon_recovery.py` -/

namespace Verif.Epervier

open Verif Verif.Packing Verif.NTT Verif.Contract Verif.Falcon Verif.Hash

/-! ## Contract -/

/-- The norm loop, ZKNOX_epervier.sol 53-67 (ethepervier.sol 52-66): `for { let offset := 32 } gt(16384, offset) { offset := add(offset, 32) }`;
both coefficients are folded and their squares added.  512 iterations of fuel always suffice. -/
def pairLoop (read1 read2 : Nat → Nat) : Nat → Nat → Nat → Nat
  | 0, _, norm => norm
  | fuel + 1, offset, norm =>
    if 16384 > offset then
      let norm := addw norm (mulw (foldCoef (read1 offset)) (foldCoef (read1 offset)))
      let norm := addw norm (mulw (foldCoef (read2 offset)) (foldCoef (read2 offset)))
      pairLoop read1 read2 fuel (offset + 32) norm
    else norm

/-- The prefix products, epervier.sol 77-93: `prefix[0] = s2[0]`, then `i` from 1 to `n - 1` (`n = 512`). -/
def prefixes (n : Nat) (s2 : List Nat) : List Nat :=
  ((List.range (n - 1)).foldl (fun (st : Nat × List Nat) k =>
    (mulmod st.1 s2[k + 1]! qF, st.2.set (k + 1) (mulmod st.1 s2[k + 1]! qF))) (s2[0]!, (List.replicate n 0).set 0 s2[0]!)).2

/-- The suffix products starting from the hint, epervier.sol 79-80, 95-101: entry `n - 2 - k` is entry `n - 1 - k` times `s2[n - 1 - k]`. -/
def suffixes (n : Nat) (s2 : List Nat) (hint : Nat) : List Nat :=
  (List.range (n - 1)).foldl (fun inv k => inv.set (n - 2 - k) (mulmod inv[n - 1 - k]! s2[n - 1 - k]! qF)) ((List.replicate n 0).set (n - 1) hint)

/-- The inverse table, epervier.sol 103-109: entry `i` is multiplied by `prefix[i - 1]`, `i` from 1 to `n - 1`. -/
def inverses (n : Nat) (s2 : List Nat) (hint : Nat) : List Nat :=
  (List.range (n - 1)).foldl (fun inv k => inv.set (k + 1) (mulmod (prefixes n s2)[k]! inv[k + 1]! qF)) (suffixes n s2 hint)

/-- The accumulated check, epervier.sol 111-121: the sum of `1 - s2[i]*inv[i]` modulo `2^256`. -/
def hintSum (n : Nat) (s2 inv : List Nat) : Nat :=
  (List.range n).foldl (fun norm i => addw norm (subw 1 (mulmod s2[i]! inv[i]! qF))) 0

/-- `HashToAddress(abi.encodePacked(a))`, epervier.sol 20-22, 127: Keccak-256 of the 32-byte words, low 160 bits.  The `keccak256` opcode is taken from its specification. -/
def hashToAddress (a : List Nat) : Nat := Sol.word (Keccak.Spec.spongeOut Keccak.Spec.F 136 0x01 (a.flatMap wordBytes) 0 32) % 2 ^ 160

/-- `recover`, ZKNOX_epervier.sol 33-119 (`hp = hashToPointNIST`), ZKNOX_ethepervier.sol 32-118 (`hp = hashToPointEVM`).  Outer `none`: the hash loop did not end within the fuel.
(The hint is only tested after the hash is computed.) -/
def recover (hp : Bytes → Bytes → Nat → Option (List Nat)) (msgs salt : Bytes) (cs1 cs2 : List Nat) (hint fuel : Nat) : Option (Except Err Nat) :=
  if salt.length ≠ 40 then some (.error (.revert "wrong salt length"))
  else if cs1.length ≠ 32 then some (.error (.revert "Invalid s1 length"))
  else if cs2.length ≠ 32 then some (.error (.revert "Invalid s2 length"))
  else
    let s1 := solExpand (asMem cs1 (fun _ => 0))
    let s2 := solExpand (asMem cs2 (fun _ => 0))
    let norm := pairLoop (fun off => s1[(off - 32) / 32]!) (fun off => s2[(off - 32) / 32]!) 512 32 0
    if norm > sigBound then some (.error (.revert "norm too large"))
    else
      let s2 := fw512 s2
      let inv := inverses 512 s2 hint
      match hp salt msgs fuel with
      | none => none
      | some hashed =>
        let norm := hintSum 512 s2 inv
        let hashed := (List.range 512).map fun i => addmod hashed[i]! (subw qF s1[i]!) qF
        if norm ≠ 0 then some (.error (.revert "wrong hint"))
        else some (.ok (hashToAddress (vecMul qF 512 (fw512 hashed) inv)))

/-! ## Python -/

/-- `encode_packed(["uint256"] * len(l), l)` (eth_abi): 32 bytes per value; a value that is not an unsigned 256-bit number raises. -/
def packInts (l : List Int) : Except Err Bytes :=
  if l.any (fun x => decide (x < 0 ∨ x ≥ 2 ^ 256)) then .error .valueError else .ok (l.flatMap fun x => wordBytes x.toNat)

/-- `K = KeccakHash(rate=200-(512 // 8), dsbyte=0x01); K.absorb(b); K.pad(); int.from_bytes(K.squeeze(32)[-20:], 'big')`,
falcon_epervier.py 63-66, falcon_recovery.py 69-72. -/
def pyAddress (l : List Int) : Except Err Nat :=
  match packInts l with
  | .error e => .error e
  | .ok b =>
    let c := Keccak.pad Keccak.F1600 (200 - 512 / 8) 0x01 (Keccak.absorb Keccak.F1600 (200 - 512 / 8) Keccak.Ctx.new b)
    let out := (Keccak.squeeze Keccak.F1600 (200 - 512 / 8) c 32).2
    .ok (Sol.word (out.drop (out.length - 20)))

/-- `[int.from_bytes(b[i:i+3], 'big') for i in range(0, len(b), 3)]`, falcon_epervier.py 42-44. -/
def be24 : Bytes → List Int
  | a :: b :: c :: r => ((a * 256 + b) * 256 + c : Nat) :: be24 r
  | [a, b] => [((a * 256 + b : Nat) : Int)]
  | [a] => [(a : Int)]
  | [] => []

/-- What distinguishes the two modes: how `s0` is represented and which vector is hashed. -/
structure Mode where
  pos : List Int → List Int
  fin : PolyLib → List Int → List Int
  key : PolyLib → List Int → List Int
  eager : Bool

/-- falcon_epervier.py: `s0` as it is (line 58), the recovered transform is hashed (60-66); the key hashes `T.ntt(h)` (80-85); the inverse is computed before the test of the encoding (117-122). -/
def epervier : Mode := ⟨id, fun _ l => l, fun P h => P.ntt h, true⟩
/-- falcon_recovery.py: non-negative `s0` (line 63), the recovered polynomial `intt(h_ntt)` is hashed (67-72); the key hashes `h` (84-88); the inverse is computed after the test (113-118). -/
def recoveryMode : Mode := ⟨fun l => l.map fun x => if x < 0 then x + 12289 else x, fun P l => P.intt l, fun _ h => h, false⟩

/-- `recover`, falcon_epervier.py 24-66, falcon_recovery.py 23-72.  `none` inside: it returns `False`. -/
def pyRecover {S : Type} (M : Mode) (P : PolyLib) (X : Xof S) (n bound bytelen : Nat) (message sig : Bytes) (fuel : Nat) : Option (Except Err (Option Nat)) :=
  let salt := (sig.drop 1).take 40
  let encS := (sig.take (sig.length - n * 3)).drop (1 + 40)
  match Encoding.decompress encS (bytelen * 2 - 1 - 40) (n * 2) with
  | .error e => some (.error e)
  | .ok none => some (.ok none)
  | .ok (some s) =>
    let s0 := s.take (s.length / 2)
    let s1 := s.drop (s.length / 2)
    let s1inv := be24 (sig.drop (sig.length - n * 3))
    if (P.vecMul s1inv (P.ntt s1)).any (fun x => decide (x ≠ 1)) then some (.ok none)
    else if sumSq s0 + sumSq s1 > bound then some (.ok none)
    else match hashToPoint X n message salt fuel with
      | none => none
      | some (.error e) => some (.error e)
      | some (.ok hashed) =>
        match pyAddress (M.fin P (P.vecMul (P.ntt (P.sub (hashed.map fun x : Nat => (x : Int)) (M.pos s0))) s1inv)) with
        | .error e => some (.error e)
        | .ok a => some (.ok (some a))

/-- `pk_rec == self.pk`, falcon_epervier.py 71, falcon_recovery.py 77: in Python `False == 0`. -/
def pyEq (r : Option Nat) (pk : Nat) : Bool := match r with
  | none => decide (pk = 0)
  | some a => decide (a = pk)

/-- `verify`, falcon_epervier.py 68-71, falcon_recovery.py 74-77. -/
def pyVerify {S : Type} (M : Mode) (P : PolyLib) (X : Xof S) (n bound bytelen pk : Nat) (message sig : Bytes) (fuel : Nat) : Option (Except Err Bool) :=
  match pyRecover M P X n bound bytelen message sig fuel with
  | none => none
  | some (.error e) => some (.error e)
  | some (.ok r) => some (.ok (pyEq r pk))

/-- `self.pk`, falcon_epervier.py 77-85, falcon_recovery.py 83-88. -/
def keyAddress (M : Mode) (P : PolyLib) (h : List Int) : Except Err Nat := pyAddress (M.key P h)

/-- `x.to_bytes(3, 'big')`: raises OverflowError outside `[0, 2^24)`. -/
def toBytes3 (x : Int) : Except Err Bytes :=
  if x < 0 ∨ x ≥ 2 ^ 24 then .error .valueError else .ok [x.toNat / 65536, x.toNat / 256 % 256, x.toNat % 256]

/-- `b''.join(x.to_bytes(3, 'big') for x in l)`. -/
def joinBytes3 : List Int → Except Err Bytes
  | [] => .ok []
  | x :: l => match toBytes3 x with
    | .error e => .error e
    | .ok b => match joinBytes3 l with
      | .error e => .error e
      | .ok r => .ok (b ++ r)

/-- `Poly(s1, q).inverse().ntt()` as bytes, falcon_epervier.py 117-120; a failing inversion raises. -/
def hintBytes (P : PolyLib) (s1 : List Int) : Except Err Bytes :=
  match P.inverse s1 with
  | none => .error .valueError
  | some i => joinBytes3 (P.ntt i)

/-- The signing loop, falcon_epervier.py 101-123, falcon_recovery.py 104-119; `attempt k` is the pair sampled in iteration `k`.  `none`: fuel ran out. -/
def pySignLoop (M : Mode) (P : PolyLib) (attempt : Nat → List Int × List Int) (bound slen : Nat) (pre : Bytes) : Nat → Nat → Option (Except Err Bytes)
  | 0, _ => none
  | fuel + 1, k =>
    let s := attempt k
    if (P.ntt s.2).all (fun x => decide (x % 12289 ≠ 0)) then
      if sumSq s.1 + sumSq s.2 ≤ bound then
        match Encoding.compress (s.1 ++ s.2) slen with
        | some enc => match hintBytes P s.2 with
          | .error e => some (.error e)
          | .ok b => some (.ok (pre ++ enc ++ b))
        | none => if M.eager then
            match hintBytes P s.2 with
            | .error e => some (.error e)
            | .ok _ => pySignLoop M P attempt bound slen pre fuel (k + 1)
          else pySignLoop M P attempt bound slen pre fuel (k + 1)
      else pySignLoop M P attempt bound slen pre fuel (k + 1)
    else pySignLoop M P attempt bound slen pre fuel (k + 1)

/-- `sign`, falcon_epervier.py 87-123, falcon_recovery.py 90-119.  `salt = randombytes(40)`; `attempt point k` is the result of `sample_preimage` in iteration `k`. -/
def pySign {S : Type} (M : Mode) (P : PolyLib) (X : Xof S) (n bound bytelen : Nat) (salt message : Bytes) (attempt : List Int → Nat → List Int × List Int)
    (fuel : Nat) : Option (Except Err Bytes) :=
  let header := [0x30 + logn n]
  match hashToPoint X n message salt fuel with
  | none => none
  | some (.error e) => some (.error e)
  | some (.ok hashed) => pySignLoop M P (attempt (hashed.map fun x : Nat => (x : Int))) bound (bytelen * 2 - 1 - 40) (header ++ salt) fuel 0

/-- The arguments `recover_on_chain` passes to the contract, sign_cli.py 180-205 (dimension 512): salt, packed `s1`, packed `s2`, hint.
`decompress` returning `False` makes `len(s)` raise; `elt % q` is non-negative in Python. -/
def cliRecoverArgs (P : PolyLib) (sig : Bytes) : Except Err (Bytes × List Nat × List Nat × Nat) :=
  let salt := (sig.drop 1).take 40
  let encS := (sig.take (sig.length - 512 * 3)).drop (1 + 40)
  match Encoding.decompress encS (666 * 2 - 1 - 40) (512 * 2) with
  | .error e => .error e
  | .ok none => .error .typeError
  | .ok (some s) =>
    let mid := s.length / 2
    let s := s.map fun x => (x % 12289).toNat
    let s1 := s.take mid
    let s2 := s.drop mid
    match falconCompact s1 with
    | .error e => .error e
    | .ok c1 => match falconCompact s2 with
      | .error e => .error e
      | .ok c2 => match P.inverse (s2.map fun x : Nat => (x : Int)) with
        | none => .error .valueError
        | some i => .ok (salt, c1, c2, ((P.ntt i).foldl (fun hint elt => hint * elt % 12289) 1).toNat)

end Verif.Epervier
