import Verif.Bits

/-! # Soft floating point: `falcon/nistfalcon/src/fpr.h` and `fpr.c`

`uint64_t` and `int64_t` are `BitVec 64`, `uint32_t` is `BitVec 32` (wrap-around arithmetic; signed shifts where the source shifts a signed value).  `int` variables (exponents, shift counts,
signs) are `Int` or `Nat`: they stay far below `2^31`.  Where an `int` is masked with `-t` for a bit `t`, the model uses `if`. -/

namespace Verif.CRef.Fpr

/-- `fpr` = `uint64_t`, fpr.h 107. -/
abbrev W := BitVec 64

/-- `fpr_ursh`, fpr.h 126-131. -/
def ursh (x : W) (n : Nat) : W :=
  let x := x ^^^ ((x ^^^ (x >>> 32)) &&& -(BitVec.ofNat 64 (n >>> 5)))
  x >>> (n &&& 31)

/-- `fpr_irsh`, fpr.h 139-144: signed shifts. -/
def irsh (x : W) (n : Nat) : W :=
  let x := x ^^^ ((x ^^^ x.sshiftRight 32) &&& -(BitVec.ofNat 64 (n >>> 5)))
  x.sshiftRight (n &&& 31)

/-- `fpr_ulsh`, fpr.h 152-157. -/
def ulsh (x : W) (n : Nat) : W :=
  let x := x ^^^ ((x ^^^ (x <<< 32)) &&& -(BitVec.ofNat 64 (n >>> 5)))
  x <<< (n &&& 31)

/-- `FPR`, fpr.h 174-216.  `s` is 0 or 1. -/
def pack (s : Nat) (e : Int) (m : W) : W :=
  let e := e + 1076
  let t : BitVec 32 := (BitVec.ofInt 32 e) >>> 31
  let m := m &&& (t.setWidth 64 - 1#64)
  let t : BitVec 32 := (m >>> 54).setWidth 32
  let e : BitVec 32 := BitVec.ofInt 32 e &&& -t
  let x := ((BitVec.ofNat 64 s <<< 63) ||| (m >>> 2)) + (e.setWidth 64 <<< 52)
  let f := (m &&& 7#64).toNat
  x + BitVec.ofNat 64 ((0xC8 >>> f) &&& 1)

/-- One line group of `FPR_NORM64`, fpr.c 50-73: a conditional shift by `k` bits, `k` = 32, 16, 8, 4, 2. -/
def normStep (k : Nat) (x : W × Int) : W × Int :=
  let (m, e) := x
  let nt : BitVec 32 := (m >>> (64 - k)).setWidth 32
  let nt := (nt ||| -nt) >>> 31
  (m ^^^ ((m ^^^ (m <<< k)) &&& (nt.setWidth 64 - 1#64)), e + k * nt.toNat)

/-- The last line group, fpr.c 75-77. -/
def normLast (x : W × Int) : W × Int :=
  let (m, e) := x
  let nt : BitVec 32 := (m >>> 63).setWidth 32
  (m ^^^ ((m ^^^ (m <<< 1)) &&& (nt.setWidth 64 - 1#64)), e + nt.toNat)

/-- `FPR_NORM64`, fpr.c 45-78. -/
def norm64 (m : W) (e : Int) : W × Int :=
  normLast (normStep 2 (normStep 4 (normStep 8 (normStep 16 (normStep 32 (m, e - 63))))))

/-- `m |= ((uint32_t)m & 0x1FF) + 0x1FF; m >>= 9;`, fpr.c 119-120 and 218-219. -/
def sticky9 (m : W) : W :=
  let m := m ||| (((m.setWidth 32 &&& 0x1FF#32) + 0x1FF#32 : BitVec 32)).setWidth 64
  m >>> 9

/-- `fpr_scaled`, fpr.c 81-135. -/
def scaled (i : W) (sc : Int) : W :=
  let s := (i >>> 63).toNat
  let i := i ^^^ -(BitVec.ofNat 64 s)
  let i := i + BitVec.ofNat 64 s
  let (m, e) := norm64 i (9 + sc)
  let m := sticky9 m
  let t := ((i ||| -i) >>> 63)
  let m := m &&& -t
  let e := if t = 0 then 0 else e
  pack s e m

/-- `fpr_of`, fpr.h 221-225. -/
def of (i : W) : W := scaled i 0

/-- The mantissa with its implicit top bit, set to zero for a zero operand, times 8: fpr.c 175-176 and 181-182. -/
def mant8 (x : W) (ex : Nat) : W :=
  let m : W := (BitVec.ofNat 64 ((ex + 0x7FF) >>> 11)) <<< 52
  ((x &&& ((1#64 <<< 52) - 1#64)) ||| m) <<< 3

/-- The conditional swap at the start of `fpr_add`, fpr.c 158-164. -/
def addSwap (x y : W) : W × W :=
  let m : W := (1#64 <<< 63) - 1#64
  let za := (x &&& m) - (y &&& m)
  let cs : BitVec 32 := (za >>> 63).setWidth 32 ||| ((1#32 - ((-za) >>> 63).setWidth 32) &&& (x >>> 63).setWidth 32)
  let m := (x ^^^ y) &&& -(cs.setWidth 64)
  (x ^^^ m, y ^^^ m)

/-- The shift of the smaller operand with a sticky low bit, fpr.c 191-199. -/
def addShift (yu : W) (cc : Nat) : W :=
  let yu := yu &&& -(((BitVec.ofInt 32 (cc - 60)) >>> 31).setWidth 64)
  let cc := cc &&& 63
  let m := ulsh 1#64 cc - 1#64
  let yu := yu ||| ((yu &&& m) + m)
  ursh yu cc

/-- `fpr_add`, fpr.c 139-245.  After the swap `ex ≥ ey`. -/
def add (x y : W) : W :=
  let (x, y) := addSwap x y
  let ex := (x >>> 52).toNat
  let sx := ex >>> 11
  let ex := ex &&& 0x7FF
  let xu := mant8 x ex
  let ex' : Int := ex - 1078
  let ey := (y >>> 52).toNat
  let sy := ey >>> 11
  let ey := ey &&& 0x7FF
  let yu := mant8 y ey
  let yu := addShift yu (ex - ey)
  let xu := xu + (yu - ((yu <<< 1) &&& -(BitVec.ofNat 64 (sx ^^^ sy))))
  let (xu, ex') := norm64 xu ex'
  let xu := sticky9 xu
  pack sx (ex' + 9) xu

/-- `fpr_neg`, fpr.h 406-411. -/
def neg (x : W) : W := x ^^^ (1#64 <<< 63)

/-- `fpr_sub`, fpr.h 399-404. -/
def sub (x y : W) : W := add x (y ^^^ (1#64 <<< 63))

/-- `fpr_half`, fpr.h 413-426. -/
def half (x : W) : W :=
  let x := x - (1#64 <<< 52)
  let t : BitVec 32 := (((x >>> 52).setWidth 32 &&& 0x7FF#32) + 1#32) >>> 11
  x &&& (t.setWidth 64 - 1#64)

/-- `fpr_double`, fpr.h 428-438. -/
def double (x : W) : W :=
  x + (((((x >>> 52).setWidth 32 &&& 0x7FF#32) + 0x7FF#32) >>> 11).setWidth 64 <<< 52)

/-- The product of the two 53-bit mantissas, fpr.c 269-298: the upper part, with the 50 low bits folded into a sticky bit. -/
def mulMant (xu yu : W) : W :=
  let x0 : BitVec 32 := xu.setWidth 32 &&& 0x01FFFFFF#32
  let x1 : BitVec 32 := (xu >>> 25).setWidth 32
  let y0 : BitVec 32 := yu.setWidth 32 &&& 0x01FFFFFF#32
  let y1 : BitVec 32 := (yu >>> 25).setWidth 32
  let w : W := x0.setWidth 64 * y0.setWidth 64
  let z0 : BitVec 32 := w.setWidth 32 &&& 0x01FFFFFF#32
  let z1 : BitVec 32 := (w >>> 25).setWidth 32
  let w : W := x0.setWidth 64 * y1.setWidth 64
  let z1 := z1 + (w.setWidth 32 &&& 0x01FFFFFF#32)
  let z2 : BitVec 32 := (w >>> 25).setWidth 32
  let w : W := x1.setWidth 64 * y0.setWidth 64
  let z1 := z1 + (w.setWidth 32 &&& 0x01FFFFFF#32)
  let z2 := z2 + (w >>> 25).setWidth 32
  let zu : W := x1.setWidth 64 * y1.setWidth 64
  let z2 := z2 + (z1 >>> 25)
  let z1 := z1 &&& 0x01FFFFFF#32
  let zu := zu + z2.setWidth 64
  zu ||| ((((z0 ||| z1) + 0x01FFFFFF#32 : BitVec 32)) >>> 25).setWidth 64

/-- `fpr_mul`, fpr.c 249-343. -/
def mul (x y : W) : W :=
  let xu := (x &&& ((1#64 <<< 52) - 1#64)) ||| (1#64 <<< 52)
  let yu := (y &&& ((1#64 <<< 52) - 1#64)) ||| (1#64 <<< 52)
  let zu := mulMant xu yu
  let zv := (zu >>> 1) ||| (zu &&& 1#64)
  let w := zu >>> 55
  let zu := zu ^^^ ((zu ^^^ zv) &&& -w)
  let ex := ((x >>> 52) &&& 0x7FF#64).toNat
  let ey := ((y >>> 52) &&& 0x7FF#64).toNat
  let e : Int := ex + ey - 2100 + w.toNat
  let s := ((x ^^^ y) >>> 63).toNat
  let d := ((ex + 0x7FF) &&& (ey + 0x7FF)) >>> 11
  let zu := zu &&& -(BitVec.ofNat 64 d)
  pack s e zu

/-- `fpr_sqr`, fpr.h 443-447. -/
def sqr (x : W) : W := mul x x

/-- One step of the division loop, fpr.c 371-375. -/
def divStep (yu : W) (a : W × W) : W × W :=
  let (xu, q) := a
  let b := ((xu - yu) >>> 63) - 1#64
  let xu := xu - (b &&& yu)
  let q := q ||| (b &&& 1#64)
  (xu <<< 1, q <<< 1)

/-- `fpr_div`, fpr.c 347-432. -/
def div (x y : W) : W :=
  let xu := (x &&& ((1#64 <<< 52) - 1#64)) ||| (1#64 <<< 52)
  let yu := (y &&& ((1#64 <<< 52) - 1#64)) ||| (1#64 <<< 52)
  let (xu, q) := (List.range 55).foldl (fun a _ => divStep yu a) (xu, 0)
  let q := q ||| ((xu ||| -xu) >>> 63)
  let q2 := (q >>> 1) ||| (q &&& 1#64)
  let w := q >>> 55
  let q := q ^^^ ((q ^^^ q2) &&& -w)
  let ex := ((x >>> 52) &&& 0x7FF#64).toNat
  let ey := ((y >>> 52) &&& 0x7FF#64).toNat
  let e : Int := ex - ey - 55 + w.toNat
  let s := ((x ^^^ y) >>> 63).toNat
  let d := (ex + 0x7FF) >>> 11
  let s := s &&& d
  let e := if d = 0 then 0 else e
  let q := q &&& -(BitVec.ofNat 64 d)
  pack s e q

/-- `fpr_inv`, fpr.h 452-456. -/
def inv (x : W) : W := div 4607182418800017408 x

/-- One step of the square root loop, fpr.c 477-483: `(xu, q, s, r)`. -/
def sqrtStep (a : W × W × W × W) : W × W × W × W :=
  let (xu, q, s, r) := a
  let t := s + r
  let b := ((xu - t) >>> 63) - 1#64
  let s := s + ((r <<< 1) &&& b)
  let xu := xu - (t &&& b)
  let q := q + (r &&& b)
  (xu <<< 1, q, s, r >>> 1)

/-- `fpr_sqrt`, fpr.c 436-511.  `e >> 1` of a negative `int` rounds down. -/
def sqrt (x : W) : W :=
  let xu := (x &&& ((1#64 <<< 52) - 1#64)) ||| (1#64 <<< 52)
  let ex := ((x >>> 52) &&& 0x7FF#64).toNat
  let e : Int := ex - 1023
  let xu := xu + (xu &&& -(BitVec.ofInt 64 (e % 2)))
  let e := e / 2
  let xu := xu <<< 1
  let (xu, q, _, _) := (List.range 54).foldl (fun a _ => sqrtStep a) (xu, 0, 0, 1#64 <<< 53)
  let q := q <<< 1
  let q := q ||| ((xu ||| -xu) >>> 63)
  let e := e - 54
  let q := q &&& -(BitVec.ofNat 64 ((ex + 0x7FF) >>> 11))
  pack 0 e q

/-- `fpr_rint`, fpr.h 272-319; the result is the bit pattern of an `int64_t`.  `e &= 63` keeps the low six bits of a possibly negative `int`. -/
def rint (x : W) : W :=
  let m := ((x <<< 10) ||| (1#64 <<< 62)) &&& ((1#64 <<< 63) - 1#64)
  let e : Int := (1085 : Int) - (((x >>> 52).setWidth 32 &&& 0x7FF#32)).toNat
  let m := m &&& -(((BitVec.ofInt 32 (e - 64)) >>> 31).setWidth 64)
  let e := (e % 64).toNat
  let d := ulsh m (63 - e)
  let dd : BitVec 32 := d.setWidth 32 ||| ((d >>> 32).setWidth 32 &&& 0x1FFFFFFF#32)
  let f : BitVec 32 := (d >>> 61).setWidth 32 ||| ((dd ||| -dd) >>> 31)
  let m := ursh m e + BitVec.ofNat 64 ((0xC8 >>> f.toNat) &&& 1)
  let s := (x >>> 63)
  (m ^^^ -s) + s

/-- `fpr_floor`, fpr.h 321-362. -/
def floor (x : W) : W :=
  let e := (((x >>> 52).setWidth 32 &&& 0x7FF#32)).toNat
  let t := x >>> 63
  let xi := ((x <<< 10) ||| (1#64 <<< 62)) &&& ((1#64 <<< 63) - 1#64)
  let xi := (xi ^^^ -t) + t
  let cc : Int := (1085 : Int) - (e : Int)
  let xi := irsh xi (cc % 64).toNat
  xi ^^^ ((xi ^^^ -t) &&& -(((BitVec.ofInt 32 (63 - cc)) >>> 31).setWidth 64))

/-- `fpr_trunc`, fpr.h 364-394. -/
def trunc (x : W) : W :=
  let e := (((x >>> 52).setWidth 32 &&& 0x7FF#32)).toNat
  let xu := ((x <<< 10) ||| (1#64 <<< 62)) &&& ((1#64 <<< 63) - 1#64)
  let cc : Int := (1085 : Int) - (e : Int)
  let xu := ursh xu (cc % 64).toNat
  let xu := xu &&& -(((BitVec.ofInt 32 (cc - 64)) >>> 31).setWidth 64)
  let t := x >>> 63
  (xu ^^^ -t) + t

/-- `fpr_lt`, fpr.h 461-480. -/
def lt (x y : W) : Bool :=
  let cc0 : Nat := if x.toInt < y.toInt then 1 else 0
  let cc1 : Nat := if x.toInt > y.toInt then 1 else 0
  (cc0 ^^^ ((cc0 ^^^ cc1) &&& ((x &&& y) >>> 63).toNat)) ≠ 0

end Verif.CRef.Fpr
