import Verif.Tetration.Tables
import Verif.NTT.Model
import Verif.Hash.Model

/-! # `external/NTT_Recursive.sol` and `external/ETHFalcon_Recursive.sol` (the fork of the Tetration verifier)

Words are naturals; every panic (index out of bounds, checked subtraction, failed `assert`) and every failed `require` is an error. -/

namespace Verif.Tetration

open Verif
open Verif.NTT (addmod mulmod)

/-- `q`, `i2`, `sqr1`, NTT_Recursive.sol 7-9. -/
def q : Nat := 12289
def i2 : Nat := 6145
def sqr1 : Nat := 1479

/-- The mapping `w` after the constructor, NTT_Recursive.sol 10-33; other keys hold the empty array. -/
def w (n : Nat) : List Nat :=
  if n = 2 then w2 else if n = 4 then w4 else if n = 8 then w8 else if n = 16 then w16 else if n = 32 then w32 else if n = 64 then w64
  else if n = 128 then w128 else if n = 256 then w256 else if n = 512 then w512 else []

/-- Array read with bounds check. -/
def idx (l : List Nat) (i : Nat) : Except Err Nat := if i < l.length then .ok (l.getD i 0) else .error (.revert "panic")

/-- `inv_mod_q[x]`: 12289 entries. -/
def invAt (x : Nat) : Except Err Nat := if x < 12289 then .ok ((invRows.getD (x / 64) []).getD (x % 64) 0) else .error (.revert "panic")

/-- Checked subtraction. -/
def csub (a b : Nat) : Except Err Nat := if b ≤ a then .ok (a - b) else .error (.revert "panic")

/-- A loop filling an array of `n` entries. -/
def fill (n : Nat) (f : Nat → Except Err Nat) : Except Err (List Nat) :=
  match n with
  | 0 => .ok []
  | n + 1 => do
    let l ← fill n f
    let x ← f n
    return l ++ [x]

/-- Entry `k` of `mergeNTT`, NTT_Recursive.sol 135-142: `2i` holds the sum, `2i+1` the difference. -/
def mergeEntry (p0 p1 : List Nat) (k : Nat) : Except Err Nat := do
  let wi ← idx (w (p0.length * 2)) (2 * (k / 2))
  let a ← idx p0 (k / 2)
  let b ← idx p1 (k / 2)
  if k % 2 = 0 then return addmod a (mulmod wi b q) q
  else
    let neg ← csub q (mulmod wi b q)
    return addmod a neg q

/-- `mergeNTT`, NTT_Recursive.sol 130-144. -/
def mergeNTT (p0 p1 : List Nat) : Except Err (List Nat) := fill (p0.length * 2) (mergeEntry p0 p1)

/-- `nTT`, NTT_Recursive.sol 87-108; one unit of fuel per level. -/
def nttLoop : Nat → List Nat → Except Err (List Nat)
  | 0, _ => .error .runtimeError
  | fuel + 1, p =>
    if p.length > 2 then do
      let p0 ← fill (p.length / 2) fun i => idx p (2 * i)
      let p1 ← fill (p.length / 2) fun i => idx p (2 * i + 1)
      let p0 ← nttLoop fuel p0
      let p1 ← nttLoop fuel p1
      mergeNTT p0 p1
    else do
      let a ← idx p 0
      let b ← idx p 1
      let neg ← csub q (mulmod b sqr1 q)
      return [addmod a (mulmod b sqr1 q) q, addmod a neg q]

def nTT (p : List Nat) : Except Err (List Nat) := nttLoop (p.length + 1) p

/-- `splitNTT`, NTT_Recursive.sol 71-85. -/
def splitNTT (p : List Nat) : Except Err (List Nat × List Nat) := do
  let p0 ← fill (p.length / 2) fun i => do
    let a ← idx p (2 * i)
    let b ← idx p (2 * i + 1)
    return mulmod i2 (addmod a b q) q
  let p1 ← fill (p.length / 2) fun i => do
    let a ← idx p (2 * i)
    let b ← idx p (2 * i + 1)
    let neg ← csub q b
    let wi ← idx (w p.length) (2 * i)
    let inv ← invAt wi
    return mulmod (mulmod i2 (addmod a neg q) q) inv q
  return (p0, p1)

/-- `iNTT`, NTT_Recursive.sol 45-69.  The result has as many entries as `p`; those the loop does not write are zero. -/
def inttLoop : Nat → List Nat → Except Err (List Nat)
  | 0, _ => .error .runtimeError
  | fuel + 1, p =>
    if p.length > 2 then do
      let (p0, p1) ← splitNTT p
      let p0 ← inttLoop fuel p0
      let p1 ← inttLoop fuel p1
      return (List.range p.length).map fun k => if k / 2 < p0.length then (if k % 2 = 0 then p0.getD (k / 2) 0 else p1.getD (k / 2) 0) else 0
    else do
      let a ← idx p 0
      let b ← idx p 1
      let neg ← csub q b
      let inv ← invAt 1479
      return [mulmod i2 (addmod a b q) q, mulmod (mulmod i2 inv q) (addmod a neg q) q]

def iNTT (p : List Nat) : Except Err (List Nat) := inttLoop (p.length + 1) p

/-- `mulNTT`, NTT_Recursive.sol 146-153. -/
def mulNTT (a b : List Nat) : Except Err (List Nat) :=
  if a.length = b.length then fill a.length fun i => do
    let x ← idx a i
    let y ← idx b i
    return mulmod x y q
  else .error .assertError

/-- `mulZQ`, NTT_Recursive.sol 36-38. -/
def mulZQ (a b : List Nat) : Except Err (List Nat) := do
  let x ← nTT a
  let y ← nTT b
  let z ← mulNTT x y
  iNTT z

/-- `mulZQ_opt`, NTT_Recursive.sol 41-43. -/
def mulZQopt (a b : List Nat) : Except Err (List Nat) := do
  let x ← nTT a
  let z ← mulNTT x b
  iNTT z

/-- `negZQ`, NTT_Recursive.sol 160-168. -/
def negZQ (a : List Nat) : Except Err (List Nat) := fill a.length fun i => do
  let x ← idx a i
  csub q x

/-- `addZQ`, NTT_Recursive.sol 170-177. -/
def addZQ (a b : List Nat) : Except Err (List Nat) :=
  if a.length = b.length then fill a.length fun i => do
    let x ← idx a i
    let y ← idx b i
    return addmod x y q
  else .error .assertError

/-- `subZQ`, NTT_Recursive.sol 155-158. -/
def subZQ (a b : List Nat) : Except Err (List Nat) :=
  if a.length = b.length then do
    let nb ← negZQ b
    addZQ a nb
  else .error .assertError

/-! ## The verifier -/

/-- The conversion of a coefficient `int256` of the signature, ETHFalcon_Recursive.sol 37-43: negative ones get `q` added and are cast to `uint256`. -/
def conv (c : Int) : Nat := if c < 0 then (((q : Int) + c) % 2 ^ 256).toNat else c.toNat

/-- Normalisation, ETHFalcon_Recursive.sol 47-62: `qs1 = 6144` (ZKNOX_falcon_utils.sol). -/
def normalize (a : List Nat) : Except Err (List Nat) := fill 512 fun i => do
  let x ← idx a i
  if x > 6144 then csub q x else return x

/-- The sum of squares, ETHFalcon_Recursive.sol 64-68.  Simplified: checked overflow is not modelled; it cannot occur, the entries being at most `q` here. -/
def norm (s0 s1 : List Nat) : Nat := (List.range 512).foldl (fun acc i => acc + s0.getD i 0 * s0.getD i 0 + s1.getD i 0 * s1.getD i 0) 0

/-- The part of `verify` after the products, ETHFalcon_Recursive.sol 45-71; the result `address(0)` is 0, `sigBound = 34034726`. -/
def decide' (hashed prod s1 : List Nat) : Except Err Nat := do
  let s0 ← subZQ hashed prod
  let s0 ← normalize s0
  let s1 ← normalize s1
  if norm s0 s1 < 34034726 then return 0 else .error (.revert "Signature is invalid")

/-- `verify`, ETHFalcon_Recursive.sol 28-71, and with `opt` `verify_nttpub`, 74-116; `H` is Keccak-256, `none`: the rejection sampling has not ended within the fuel. -/
def verify (H : Bytes → Bytes) (opt : Bool) (msgs salt : Bytes) (s1 : List Int) (h : List Nat) (fuel : Nat) : Option (Except Err Nat) :=
  if h.length ≠ 512 then some (.error (.revert "Invalid public key length"))
  else if s1.length ≠ 512 then some (.error (.revert "Invalid signature length"))
  else match Hash.Sol.hashToPointTETRATION H salt msgs fuel with
    | none => none
    | some hashed => some do
      let prod ← (if opt then mulZQopt (s1.map conv) h else mulZQ (s1.map conv) h)
      decide' hashed prod (s1.map conv)

end Verif.Tetration
