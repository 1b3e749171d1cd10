import Verif.CRef.Fpr
import Verif.CRef.Prng

/-! # The sampler of the C signer: `falcon/nistfalcon/src/sign.c` 985-1195 and `fpr_expm_p63`

Words are `BitVec`; the generator is the one of C95.  `int` values that stay small (`z`, `z0`, `b`, shift counts) are `Nat` or `Int`. -/

namespace Verif.CRef.SignSampler
open Verif.CRef Verif.CRef.Fpr

/-- `dist`, sign.c 992-1010. -/
def dist : List (BitVec 32) :=
  [10745844, 3068844, 3741698, 5559083, 1580863, 8248194, 2260429, 13669192, 2736639, 708981, 4421575, 10046180, 169348, 7122675, 4136815,
   30538, 13063405, 7650655, 4132, 14505003, 7826148, 417, 16768101, 11363290, 31, 8444042, 8086568, 1, 12844466, 265321,
   0, 1232676, 13644283, 0, 38047, 9111839, 0, 870, 6138264, 0, 14, 12545723, 0, 0, 3104126, 0, 0, 28824, 0, 0, 198, 0, 0, 1]

/-- The body of the loop, sign.c 1034-1042: the borrow of the three-limb subtraction. -/
def borrow (v0 v1 v2 w0 w1 w2 : BitVec 32) : BitVec 32 :=
  let cc := (v0 - w0) >>> 31
  let cc := (v1 - w1 - cc) >>> 31
  (v2 - w2 - cc) >>> 31

/-- The limbs and the loop of `gaussian0_sampler`, sign.c 1022-1045, for the two draws; `u = 3k`. -/
def gaussian0Of (lo hi : Nat) : Nat :=
  let lo : BitVec 64 := BitVec.ofNat 64 lo
  let hi : BitVec 32 := BitVec.ofNat 32 hi
  let v0 : BitVec 32 := lo.setWidth 32 &&& 0xFFFFFF#32
  let v1 : BitVec 32 := (lo >>> 24).setWidth 32 &&& 0xFFFFFF#32
  let v2 : BitVec 32 := (lo >>> 48).setWidth 32 ||| hi <<< 16
  (List.range 18).foldl (fun z k => z + (borrow v0 v1 v2 (dist.getD (3 * k + 2) 0) (dist.getD (3 * k + 1) 0) (dist.getD (3 * k) 0)).toNat) 0

/-- `gaussian0_sampler`, sign.c 989-1047. -/
def gaussian0 (p : Prng.Prng) : Nat × Prng.Prng :=
  let lo := Prng.getU64 p
  let hi := Prng.getU8 lo.2
  (gaussian0Of lo.1 hi.1, hi.2)

/-- The upper half of a 128-bit product from 32-bit halves, fpr.c 563-573 and 585-595. -/
def mulHi (z y : W) : W :=
  let z0 : BitVec 32 := z.setWidth 32
  let z1 : BitVec 32 := (z >>> 32).setWidth 32
  let y0 : BitVec 32 := y.setWidth 32
  let y1 : BitVec 32 := (y >>> 32).setWidth 32
  let a : W := z0.setWidth 64 * y1.setWidth 64 + (z0.setWidth 64 * y0.setWidth 64) >>> 32
  let b : W := z1.setWidth 64 * y0.setWidth 64
  let c := (a >>> 32) + (b >>> 32)
  let c := c + ((a.setWidth 32).setWidth 64 + (b.setWidth 32).setWidth 64) >>> 32
  c + z1.setWidth 64 * y1.setWidth 64

/-- `C`, fpr.c 529-543. -/
def expmC : List W :=
  [0x00000004741183A3, 0x00000036548CFC06, 0x0000024FDCBF140A, 0x0000171D939DE045, 0x0000D00CF58F6F84, 0x000680681CF796E3, 0x002D82D8305B0FEA, 0x011111110E066FD0,
   0x0555555555070F00, 0x155555555581FF00, 0x400000000002B400, 0x7FFFFFFFFFFF4800, 0x8000000000000000]

/-- `fpr_ptwo63`, fpr.h 270. -/
def ptwo63 : W := 4890909195324358656

/-- The loop of `fpr_expm_p63`, fpr.c 550-577. -/
def expmLoop (z : W) : W := expmC.tail.foldl (fun y c => c - mulHi z y) (expmC.headD 0)

/-- `fpr_expm_p63`, fpr.c 514-598. -/
def expm63 (x ccs : W) : W :=
  let y := expmLoop (trunc (mul x ptwo63) <<< 1)
  mulHi (trunc (mul ccs ptwo63) <<< 1) y

/-- `fpr_log2`, `fpr_inv_log2`, `fpr_inv_2sqrsigma0`, fpr.h 229-257. -/
def log2 : W := 4604418534313441775
def invLog2 : W := 4609176140021203710
def inv2sqrsigma0 : W := 4594603506513722306

/-- The threshold `z` of `BerExp`, sign.c 1062-1090.  `(int)` of an `int64_t` keeps the low 32 bits; `fpr_of(s)` extends the sign. -/
def threshold (x ccs : W) : W :=
  let s : BitVec 32 := (trunc (mul x invLog2)).setWidth 32
  let r := sub x (mul (of (s.signExtend 64)) log2)
  let sw := s ^^^ ((s ^^^ 63#32) &&& -((63#32 - s) >>> 31))
  ((expm63 r ccs <<< 1) - 1#64) >>> sw.toNat

/-- The loop of `BerExp`, sign.c 1099-1103, over the shifts that remain: the last difference `w`. -/
def berLoop (z : W) : List Nat → BitVec 32 → Prng.Prng → BitVec 32 × Prng.Prng
  | [], w, p => (w, p)
  | i :: is, _, p =>
    let (v, p) := Prng.getU8 p
    let w := BitVec.ofNat 32 v - ((z >>> i).setWidth 32 &&& 0xFF#32)
    if w = 0 then berLoop z is w p else (w, p)

/-- `BerExp`, sign.c 1052-1105. -/
def berExp (p : Prng.Prng) (x ccs : W) : Bool × Prng.Prng :=
  let a := berLoop (threshold x ccs) [56, 48, 40, 32, 24, 16, 8, 0] 0 p
  (decide (a.1 >>> 31 ≠ 0), a.2)

/-- `fpr_of` of an `int`. -/
def ofInt (z : Int) : W := of (BitVec.ofInt 64 z)

/-- The exponent `x`, sign.c 1183-1184. -/
def exponent (z : Int) (z0 : Nat) (r dss : W) : W :=
  sub (mul (sqr (sub (ofInt z) r)) dss) (mul (ofInt (z0 * z0)) inv2sqrsigma0)

/-- The loop of `sampler`, sign.c 1144-1194.  `none`: the fuel ran out (the C loop has no bound). -/
def sampleLoop (s : Int) (r dss ccs : W) : Nat → Prng.Prng → Option (Int × Prng.Prng)
  | 0, _ => none
  | fuel + 1, p =>
    let g := gaussian0 p
    let v := Prng.getU8 g.2
    let b := v.1 % 2
    let z : Int := b + (2 * b - 1) * g.1
    let a := berExp v.2 (exponent z g.1 r dss) ccs
    if a.1 then some (s + z, a.2) else sampleLoop s r dss ccs fuel a.2

/-- `s = (int)fpr_floor(mu)`, sign.c 1128. -/
def center (mu : W) : BitVec 32 := (floor mu).setWidth 32

/-- `sampler`, sign.c 1115-1195; `spc->sigma_min` is a parameter. -/
def sampler (sigmaMin mu isigma : W) (fuel : Nat) (p : Prng.Prng) : Option (Int × Prng.Prng) :=
  let s := center mu
  let r := sub mu (of (s.signExtend 64))
  let dss := half (sqr isigma)
  let ccs := mul isigma sigmaMin
  sampleLoop s.toInt r dss ccs fuel p

end Verif.CRef.SignSampler
