import Verif.Bits
import Verif.Keccak.Spec

/-! # Keccak in Python: `pythonref/keccak.py`, `pythonref/shake.py`

`numpy.uint64` arithmetic is `BitVec 64` arithmetic; `numpy.uint8` values are naturals below 256. -/

namespace Verif.Keccak

export Spec (Lane bytesToLanes lanesToBytes)

/-- `_KECCAK_RHO`, keccak.py 11-15. -/
def keccakRho : List Nat := [1, 3, 6, 10, 15, 21, 28, 36, 45, 55, 2, 14, 27, 41, 56, 8, 25, 43, 62, 18, 39, 61, 20, 44]
/-- `_KECCAK_PI`, keccak.py 16-20. -/
def keccakPi : List Nat := [10, 7, 11, 17, 18, 3, 5, 16, 8, 21, 24, 4, 15, 23, 19, 13, 12, 2, 20, 14, 22, 9, 6, 1]
/-- `_KECCAK_RC`, keccak.py 21-34. -/
def keccakRc : List Nat := [
    0x0000000000000001, 0x0000000000008082,
    0x800000000000808a, 0x8000000080008000,
    0x000000000000808b, 0x0000000080000001,
    0x8000000080008081, 0x8000000000008009,
    0x000000000000008a, 0x0000000000000088,
    0x0000000080008009, 0x000000008000000a,
    0x000000008000808b, 0x800000000000008b,
    0x8000000000008089, 0x8000000000008003,
    0x8000000000008002, 0x8000000000000080,
    0x000000000000800a, 0x800000008000000a,
    0x8000000080008081, 0x8000000000008080,
    0x0000000080000001, 0x8000000080008008]

/-- `rol`, keccak.py 40-42. -/
def rol (x : Lane) (s : Nat) : Lane := (x <<< s) ^^^ (x >>> (64 - s))

/-- `state[i]`. -/
def ln (s : List Lane) (i : Nat) : Lane := s.getD i 0#64

/-- One round of `F1600`, keccak.py 56-82.  `bc` (reassigned in every round before use) is not carried between rounds. -/
def round (rc : Lane) (state : List Lane) : List Lane :=
  -- Parity, lines 57-60
  let bc := (List.range 5).map fun x => [0, 5, 10, 15, 20].foldl (fun b y => b ^^^ ln state (x + y)) 0#64
  -- Theta, lines 63-66
  let state := (List.range 5).foldl (fun state x =>
    let t := ln bc ((x + 4) % 5) ^^^ rol (ln bc ((x + 1) % 5)) 1
    [0, 5, 10, 15, 20].foldl (fun state y => state.set (y + x) (ln state (y + x) ^^^ t)) state) state
  -- Rho and pi, lines 69-73
  let state := ((List.range 24).foldl (fun (st : List Lane × Lane) x =>
    let b := ln st.1 (keccakPi.getD x 0)
    (st.1.set (keccakPi.getD x 0) (rol st.2 (keccakRho.getD x 0)), b)) (state, ln state 1)).1
  -- Chi, lines 75-80
  let state := [0, 5, 10, 15, 20].foldl (fun state y =>
    let bc := (List.range 5).map fun x => ln state (y + x)
    (List.range 5).foldl (fun state x => state.set (y + x) (ln bc x ^^^ (~~~(ln bc ((x + 1) % 5)) &&& ln bc ((x + 2) % 5)))) state) state
  -- Iota, line 82
  state.set 0 (ln state 0 ^^^ rc)

/-- `Keccak.F1600`, keccak.py 51-83. -/
def F1600 (state : List Lane) : List Lane :=
  (List.range 24).foldl (fun state i => round (BitVec.ofNat 64 (keccakRc.getD i 0)) state) state

/-- `KeccakHash`, keccak.py 95-104: `k.state`, `buf` (200 bytes) and the position `i`.
(`direction` is always "absorbing": line 148 compares instead of assigning, and no other line writes it.) -/
structure Ctx where
  state : List Lane
  buf : Bytes
  i : Nat
deriving DecidableEq

/-- `KeccakHash.__init__` without data, keccak.py 97-103. -/
def Ctx.new : Ctx := ⟨List.replicate 25 0#64, List.replicate 200 0, 0⟩

/-- `buf[off:off+len(d)] ^= d`, keccak.py 112-113. -/
def xorAt : Bytes → Nat → Bytes → Bytes
  | buf, _, [] => buf
  | buf, off, x :: d => xorAt (buf.modify off (· ^^^ x)) (off + 1) d

/-- `permute`, keccak.py 139-143 (little-endian view of the buffer); `f` is `F1600` except in generic lemmas. -/
def permute (f : List Lane → List Lane) (c : Ctx) : Ctx :=
  ⟨f (List.zipWith (· ^^^ ·) c.state (bytesToLanes c.buf)), List.replicate 200 0, 0⟩

/-- The loop of `absorb`, keccak.py 109-118; one unit of fuel per remaining byte is enough when `i < rate`. -/
def absorbLoop (f : List Lane → List Lane) (rate : Nat) : Nat → Ctx → Bytes → Ctx
  | 0, c, _ => c
  | fuel + 1, c, b =>
    if b.length = 0 then c
    else
      let w := min (rate - c.i) b.length
      let c : Ctx := { c with buf := xorAt c.buf c.i (b.take w), i := c.i + w }
      let c := if c.i = rate then permute f c else c
      absorbLoop f rate fuel c (b.drop w)

/-- `KeccakHash.absorb`, keccak.py 106-118; also `SHAKE.update`, shake.py 12-13, and `KeccakHash.update`, keccak.py 145-150. -/
def absorb (f : List Lane → List Lane) (rate : Nat) (c : Ctx) (b : Bytes) : Ctx := absorbLoop f rate b.length c b

/-- The loop of `squeeze`, keccak.py 123-131. -/
def squeezeLoop (f : List Lane → List Lane) (rate : Nat) : Nat → Ctx → Nat → Bytes → Ctx × Bytes
  | 0, c, _, b => (c, b)
  | fuel + 1, c, tosqueeze, b =>
    if tosqueeze = 0 then (c, b)
    else
      let w := min (rate - c.i) tosqueeze
      let b := b ++ ((lanesToBytes c.state).drop c.i).take w
      let c : Ctx := { c with i := c.i + w }
      let c := if c.i = rate then permute f c else c
      squeezeLoop f rate fuel c (tosqueeze - w) b

/-- `KeccakHash.squeeze`, keccak.py 120-132; also `SHAKE.read`, shake.py 15-16. -/
def squeeze (f : List Lane → List Lane) (rate : Nat) (c : Ctx) (n : Nat) : Ctx × Bytes := squeezeLoop f rate n c n []

/-- `KeccakHash.pad`, keccak.py 134-137; also `SHAKE.flip`, shake.py 18-20. -/
def pad (f : List Lane → List Lane) (rate ds : Nat) (c : Ctx) : Ctx :=
  permute f { c with buf := (c.buf.modify c.i (· ^^^ ds)).modify (rate - 1) (· ^^^ 0x80) }

/-- `SHAKE` defaults, shake.py 5: `rate = 200 - 512 // 8`, `dsbyte = 0x1f`. -/
def shakeRate : Nat := 200 - 512 / 8
def shakeDs : Nat := 0x1f

end Verif.Keccak
