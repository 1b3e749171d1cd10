import Verif.CRef.Keygen

/-! # Big integers of the C key generation: `falcon/nistfalcon/src/keygen.c` 1108-2200

Integers are lists of 31-bit words, least significant first.  A loop `for (u = 0; u < len; u ++)` over such arrays is a recursion over the lists, a loop from the top is a `foldr`; arrays that
are rewritten in place are returned.  `uint32_t` words are natural numbers with explicit reductions; the `int64_t` coefficients of the extended GCD are `BitVec 64`.
The arrays of one call are assumed not to overlap, as the comments in the file require. -/

namespace Verif.CRef.Kg

/-! ## Words, keygen.c 1146-1320 -/

/-- The loop of `zint_sub`, keygen.c 1154-1162; `m = -ctl`. -/
def zintSubLoop (m : Nat) : List Nat → List Nat → Nat → List Nat × Nat
  | a :: as, b :: bs, cc =>
    let w := sub32 (sub32 a b) cc
    let r := zintSubLoop m as bs (w >>> 31)
    ((a ^^^ (((w &&& 0x7FFFFFFF) ^^^ a) &&& m)) :: r.1, r.2)
  | as, _, cc => (as, cc)

/-- `zint_sub`, keygen.c 1146-1164: the new `a` and the carry. -/
def zintSub (a b : List Nat) (ctl : Nat) : List Nat × Nat := zintSubLoop (neg32 ctl) a b 0

/-- `zint_mul_small`, keygen.c 1171-1185: the new `m` and the carry; `cc` starts at 0. -/
def zintMulSmall (x : Nat) : List Nat → Nat → List Nat × Nat
  | [], cc => ([], cc)
  | m :: ms, cc =>
    let z := (m * x + cc) % 18446744073709551616
    let r := zintMulSmall x ms ((z >>> 31) % 4294967296)
    ((z % 4294967296 &&& 0x7FFFFFFF) :: r.1, r.2)

/-- `zint_mod_small_unsigned`, keygen.c 1197-1219. -/
def zintModSmallUnsigned (d : List Nat) (p p0i r2 : Nat) : Nat :=
  d.foldr (fun dw x =>
    let w := sub32 dw p
    modpAdd (modpMontymul x r2 p p0i) (add32 w (p &&& neg32 (w >>> 31))) p) 0

/-- `zint_mod_small_signed`, keygen.c 1227-1239. -/
def zintModSmallSigned (d : List Nat) (p p0i r2 rx : Nat) : Nat :=
  if d.length = 0 then 0 else modpSub (zintModSmallUnsigned d p p0i r2) (rx &&& neg32 (d[d.length - 1]! >>> 30)) p

/-- `zint_add_mul_small`, keygen.c 1246-1265: the new `x`, one word longer; `cc` starts at 0. -/
def zintAddMulSmall (s : Nat) : List Nat → List Nat → Nat → List Nat
  | x :: xs, y :: ys, cc =>
    let z := (y * s + x + cc) % 18446744073709551616
    (z % 4294967296 &&& 0x7FFFFFFF) :: zintAddMulSmall s xs ys ((z >>> 31) % 4294967296)
  | _, _, cc => [cc]

/-- One round of the comparison in `zint_norm_zero`, keygen.c 1287-1308; the state is `(r, bb)`. -/
def normZeroStep (w : Nat × Nat) (st : Nat × Nat) : Nat × Nat :=
  let wp := (w.2 >>> 1) ||| ((st.2 <<< 30) % 4294967296)
  let cc := sub32 wp w.1
  let cc := (neg32 cc >>> 31) ||| neg32 (cc >>> 31)
  (st.1 ||| (cc &&& sub32 (st.1 &&& 1) 1), w.2 &&& 1)

/-- `zint_norm_zero`, keygen.c 1272-1317. -/
def zintNormZero (x p : List Nat) : List Nat :=
  let r := ((x.zip p).foldr normZeroStep (0, 0)).1
  (zintSub x p (r >>> 31)).1

/-! ## Chinese remainders, keygen.c 1333-1390 -/

/-- The body of the loop over the integers, keygen.c 1363-1377: `x` holds the integer modulo the product `tmp` of the first `u` primes in its first `u` words and residues behind them. -/
def crtStep (u p s p0i r2 : Nat) (tmp x : List Nat) : List Nat :=
  let xp := x[u]!
  let xq := zintModSmallUnsigned (x.take u) p p0i r2
  let xr := modpMontymul s (modpSub xp xq p) p p0i
  zintAddMulSmall xr (x.take u) tmp 0 ++ x.drop (u + 1)

/-- One round of the loop over the primes, keygen.c 1342-1381; the state is the list of integers and `tmp`. -/
def crtRound (primes : List (Nat × Nat × Nat)) (st : List (List Nat) × List Nat) (u : Nat) : List (List Nat) × List Nat :=
  let p := (primes[u]!).1
  let s := (primes[u]!).2.2
  let p0i := modpNinv31 p
  let r2 := modpR2 p p0i
  let m := zintMulSmall p st.2 0
  (st.1.map (crtStep u p s p0i r2 st.2), m.1 ++ [m.2])

/-- `zint_rebuild_CRT`, keygen.c 1333-1390: the integers are given as a list (`xx`, `xstride` and `num` place them in memory without overlap). -/
def zintRebuildCRT (xx : List (List Nat)) (xlen : Nat) (primes : List (Nat × Nat × Nat)) (norm : Bool) : List (List Nat) :=
  let st := (List.range (xlen - 1)).foldl (fun st u => crtRound primes st (u + 1)) (xx, [(primes[0]!).1])
  if norm then st.1.map fun x => zintNormZero x st.2 else st.1

/-! ## Extended GCD, keygen.c 1397-1895 -/

/-- The loop of `zint_negate`, keygen.c 1410-1417; `m = -ctl >> 1`. -/
def zintNegateLoop (m : Nat) : List Nat → Nat → List Nat
  | [], _ => []
  | a :: as, cc =>
    let aw := add32 (a ^^^ m) cc
    (aw &&& 0x7FFFFFFF) :: zintNegateLoop m as (aw >>> 31)

/-- `zint_negate`, keygen.c 1397-1418. -/
def zintNegate (a : List Nat) (ctl : Nat) : List Nat := zintNegateLoop (neg32 ctl >>> 1) a ctl

/-- A word as `uint64_t`. -/
def w64 (w : Nat) : BitVec 64 := BitVec.ofNat 64 w

/-- The words of one of the two combinations of `zint_co_reduce` and `zint_co_reduce_mod`, keygen.c 1443-1458 and 1538-1556: the low 31 bits of every `z`, and the last carry.
(`m[u] * f` is absent in the first function: there `f = 0`.) -/
def combine (xa xb f : BitVec 64) : List Nat → List Nat → List Nat → BitVec 64 → List Nat × BitVec 64
  | a :: as, b :: bs, m :: ms, cc =>
    let z := w64 a * xa + w64 b * xb + w64 m * f + cc
    let r := combine xa xb f as bs ms (z.sshiftRight 31)
    ((z.setWidth 32 &&& 0x7FFFFFFF#32).toNat :: r.1, r.2)
  | _, _, _, cc => ([], cc)

/-- The array after these loops, keygen.c 1449-1460 and 1545-1558: the words move down by one place (the lowest is dropped) and the carry becomes the top word. -/
def shifted (r : List Nat × BitVec 64) : List Nat := r.1.tail ++ [(r.2.setWidth 32).toNat]

/-- The sign of the carry, keygen.c 1462 and 1567. -/
def signOf (cc : BitVec 64) : Nat := (cc >>> 63).toNat

/-- `zint_co_reduce`, keygen.c 1434-1467: the new `a`, `b`, and the returned value.  `m[u] * f` is 0 here. -/
def zintCoReduce (a b : List Nat) (xa xb ya yb : BitVec 64) : List Nat × List Nat × Nat :=
  let zeros := List.replicate a.length 0
  let ra := combine xa xb 0 a b zeros 0
  let rb := combine ya yb 0 a b zeros 0
  let nega := signOf ra.2
  let negb := signOf rb.2
  (zintNegate (shifted ra) nega, zintNegate (shifted rb) negb, nega ||| (negb <<< 1))

/-- The first pass of `zint_finish_mod`, keygen.c 1489-1492. -/
def finishCmp : List Nat → List Nat → Nat → Nat
  | a :: as, m :: ms, cc => finishCmp as ms (sub32 (sub32 a m) cc >>> 31)
  | _, _, cc => cc

/-- The second pass, keygen.c 1506-1514. -/
def finishLoop (xm ym : Nat) : List Nat → List Nat → Nat → List Nat
  | a :: as, m :: ms, cc =>
    let aw := sub32 (sub32 a ((m ^^^ xm) &&& ym)) cc
    (aw &&& 0x7FFFFFFF) :: finishLoop xm ym as ms (aw >>> 31)
  | as, _, _ => as

/-- `zint_finish_mod`, keygen.c 1479-1515. -/
def zintFinishMod (a m : List Nat) (neg : Nat) : List Nat :=
  let cc := finishCmp a m 0
  finishLoop (neg32 neg >>> 1) (neg32 (neg ||| sub32 1 cc)) a m neg

/-- The factor `fa` or `fb` of `zint_co_reduce_mod`, keygen.c 1535-1536. -/
def montFactor (a0 b0 m0i : Nat) (xa xb : BitVec 64) : BitVec 64 :=
  ((((BitVec.ofNat 32 a0 * xa.setWidth 32 + BitVec.ofNat 32 b0 * xb.setWidth 32) * BitVec.ofNat 32 m0i) &&& 0x7FFFFFFF#32).setWidth 64)

/-- `zint_co_reduce_mod`, keygen.c 1522-1569: the new `a` and `b`. -/
def zintCoReduceMod (a b m : List Nat) (m0i : Nat) (xa xb ya yb : BitVec 64) : List Nat × List Nat :=
  let ra := combine xa xb (montFactor a[0]! b[0]! m0i xa xb) a b m 0
  let rb := combine ya yb (montFactor a[0]! b[0]! m0i ya yb) a b m 0
  (zintFinishMod (shifted ra) m (signOf ra.2), zintFinishMod (shifted rb) m (signOf rb.2))

/-- State of the search for the top words, keygen.c 1728-1750. -/
structure Top where
  a0 : BitVec 32
  a1 : BitVec 32
  b0 : BitVec 32
  b1 : BitVec 32
  c0 : BitVec 32
  c1 : BitVec 32

/-- One round of that search, keygen.c 1736-1749. -/
def topStep (w : Nat × Nat) (t : Top) : Top :=
  let aw := BitVec.ofNat 32 w.1
  let bw := BitVec.ofNat 32 w.2
  { a0 := t.a0 ^^^ ((t.a0 ^^^ aw) &&& t.c0), a1 := t.a1 ^^^ ((t.a1 ^^^ aw) &&& t.c1), b0 := t.b0 ^^^ ((t.b0 ^^^ bw) &&& t.c0), b1 := t.b1 ^^^ ((t.b1 ^^^ bw) &&& t.c1),
    c1 := t.c0, c0 := t.c0 &&& ((((aw ||| bw) + 0x7FFFFFFF#32) >>> 31) - 1#32) }

/-- `a_hi` and `b_hi`, keygen.c 1728-1763. -/
def topWords (a b : List Nat) : BitVec 64 × BitVec 64 :=
  let t := (a.zip b).foldr topStep ⟨0, 0, 0, 0, -1#32, -1#32⟩
  let a1 := t.a1 ||| (t.a0 &&& t.c1)
  let a0 := t.a0 &&& ~~~t.c1
  let b1 := t.b1 ||| (t.b0 &&& t.c1)
  let b0 := t.b0 &&& ~~~t.c1
  ((a0.setWidth 64 <<< 31) + a1.setWidth 64, (b0.setWidth 64 <<< 31) + b1.setWidth 64)

/-- State of the loop that computes the reduction factors, keygen.c 1775-1779. -/
structure Red where
  aHi : BitVec 64
  bHi : BitVec 64
  aLo : BitVec 32
  bLo : BitVec 32
  pa : BitVec 64
  pb : BitVec 64
  qa : BitVec 64
  qb : BitVec 64

/-- One round of that loop, keygen.c 1780-1847. -/
def redStep (t : Red) (i : Nat) : Red :=
  let rz := t.bHi - t.aHi
  let rt : BitVec 32 := ((rz ^^^ ((t.aHi ^^^ t.bHi) &&& (t.aHi ^^^ rz))) >>> 63).setWidth 32
  let oa := (t.aLo >>> i) &&& 1#32
  let ob := (t.bLo >>> i) &&& 1#32
  let cAB := oa &&& ob &&& rt
  let cBA := oa &&& ob &&& ~~~rt
  let cA := cAB ||| (oa ^^^ 1#32)
  let aLo := t.aLo - (t.bLo &&& -cAB)
  let aHi := t.aHi - (t.bHi &&& -(cAB.setWidth 64))
  let pa := t.pa - (t.qa &&& -(cAB.setWidth 64))
  let pb := t.pb - (t.qb &&& -(cAB.setWidth 64))
  let bLo := t.bLo - (aLo &&& -cBA)
  let bHi := t.bHi - (aHi &&& -(cBA.setWidth 64))
  let qa := t.qa - (pa &&& -(cBA.setWidth 64))
  let qb := t.qb - (pb &&& -(cBA.setWidth 64))
  { aLo := aLo + (aLo &&& (cA - 1#32)), pa := pa + (pa &&& (cA.setWidth 64 - 1#64)), pb := pb + (pb &&& (cA.setWidth 64 - 1#64)),
    aHi := aHi ^^^ ((aHi ^^^ (aHi >>> 1)) &&& -(cA.setWidth 64)),
    bLo := bLo + (bLo &&& -cA), qa := qa + (qa &&& -(cA.setWidth 64)), qb := qb + (qb &&& -(cA.setWidth 64)),
    bHi := bHi ^^^ ((bHi ^^^ (bHi >>> 1)) &&& (cA.setWidth 64 - 1#64)) }

/-- The loop, keygen.c 1775-1848. -/
def redFactors (a b : List Nat) : Red :=
  let h := topWords a b
  (List.range 31).foldl redStep ⟨h.1, h.2, BitVec.ofNat 32 a[0]!, BitVec.ofNat 32 b[0]!, 1, 0, 0, 1⟩

/-- The correction of a factor after `zint_co_reduce`, keygen.c 1857-1860. -/
def fixSign (x : BitVec 64) (neg : Nat) : BitVec 64 := x - ((x + x) &&& -(w64 neg))

/-- The arrays of `zint_bezout`. -/
structure Bez where
  a : List Nat
  b : List Nat
  u0 : List Nat
  u1 : List Nat
  v0 : List Nat
  v1 : List Nat

/-- One round of the outer loop, keygen.c 1711-1863. -/
def bezRound (x y : List Nat) (x0i y0i : Nat) (t : Bez) : Bez :=
  let f := redFactors t.a t.b
  let c := zintCoReduce t.a t.b f.pa f.pb f.qa f.qb
  let r := c.2.2
  let pa := fixSign f.pa (r &&& 1)
  let pb := fixSign f.pb (r &&& 1)
  let qa := fixSign f.qa (r >>> 1)
  let qb := fixSign f.qb (r >>> 1)
  let u := zintCoReduceMod t.u0 t.u1 y y0i pa pb qa qb
  let v := zintCoReduceMod t.v0 t.v1 x x0i pa pb qa qb
  ⟨c.1, c.2.1, u.1, u.2, v.1, v.2⟩

/-- The returned value, keygen.c 1872-1876. -/
def bezResult (a : List Nat) (x0 y0 : Nat) : Nat :=
  let rc := a.tail.foldl (fun rc w => rc ||| w) (a[0]! ^^^ 1)
  sub32 1 ((rc ||| neg32 rc) >>> 31) &&& x0 &&& y0

/-- The arrays before the loop, keygen.c 1690-1705. -/
def bezInit (x y : List Nat) : Bez :=
  ⟨x, y, 1 :: List.replicate (x.length - 1) 0, y, List.replicate x.length 0, x.set 0 (sub32 x[0]! 1)⟩

/-- `zint_bezout`, keygen.c 1582-1877: `u`, `v` and the returned value.  The loop counts `num` down from `62 len + 30` in steps of 30 while it is at least 30: `62 len / 30 + 1` rounds. -/
def zintBezout (x y : List Nat) : List Nat × List Nat × Nat :=
  if x.length = 0 then ([], [], 0)
  else
    let t := (List.range (62 * x.length / 30 + 1)).foldl (fun t _ => bezRound x y (modpNinv31 x[0]!) (modpNinv31 y[0]!) t) (bezInit x y)
    (t.u0, t.v0, bezResult t.a x[0]! y[0]!)

/-! ## Scaled additions, keygen.c 1908-2014 -/

/-- `ysign`, keygen.c 1920 and 1980. -/
def signWord (y : List Nat) : Nat := neg32 (y[y.length - 1]! >>> 30) >>> 1

/-- The loop of `zint_add_scaled_mul_small`, keygen.c 1923-1954, over the words of `x` from `sch` on; `ys` are the words of `y` that remain.  `z` is `uint64_t`, `cc` is `int32_t`. -/
def addScaledLoop (k : Int) (scl ysign : Nat) : List Nat → List Nat → Nat → Int → List Nat
  | [], _, _, _ => []
  | x :: xs, ys, tw, cc =>
    let wy := ys.headD ysign
    let wys := (((wy <<< scl) % 4294967296) &&& 0x7FFFFFFF) ||| tw
    let z := ((wys * k + x + cc) % 18446744073709551616).toNat
    (z % 4294967296 &&& 0x7FFFFFFF) :: addScaledLoop k scl ysign xs ys.tail (wy >>> (31 - scl)) (i32 (z >>> 31))

/-- `zint_add_scaled_mul_small`, keygen.c 1908-1955. -/
def zintAddScaledMulSmall (x y : List Nat) (k : Int) (sch scl : Nat) : List Nat :=
  if y.length = 0 then x else x.take sch ++ addScaledLoop k scl (signWord y) (x.drop sch) y 0 0

/-- The loop of `zint_sub_scaled`, keygen.c 1983-1998. -/
def subScaledLoop (scl ysign : Nat) : List Nat → List Nat → Nat → Nat → List Nat
  | [], _, _, _ => []
  | x :: xs, ys, tw, cc =>
    let wy := ys.headD ysign
    let wys := (((wy <<< scl) % 4294967296) &&& 0x7FFFFFFF) ||| tw
    let w := sub32 (sub32 x wys) cc
    (w &&& 0x7FFFFFFF) :: subScaledLoop scl ysign xs ys.tail (wy >>> (31 - scl)) (w >>> 31)

/-- `zint_sub_scaled`, keygen.c 1969-1999. -/
def zintSubScaled (x y : List Nat) (sch scl : Nat) : List Nat :=
  if y.length = 0 then x else x.take sch ++ subScaledLoop scl (signWord y) (x.drop sch) y 0 0

/-- The inner loop of `poly_sub_scaled`, keygen.c 2127-2137; the state is `F` and the position and sign of the next product. -/
def subScaledRow (n : Nat) (f : List (List Nat)) (sch scl u : Nat) (kf : Int) (F : List (List Nat)) : List (List Nat) :=
  ((List.range n).foldl (fun (st : List (List Nat) × Nat × Int) v =>
    let F := st.1.set st.2.1 (zintAddScaledMulSmall st.1[st.2.1]! f[v]! st.2.2 sch scl)
    if u + v = n - 1 then (F, 0, -st.2.2) else (F, st.2.1 + 1, st.2.2)) (F, u, kf)).1

/-- `poly_sub_scaled`, keygen.c 2107-2140: `F` and `f` as lists of integers (`Fstride`, `fstride` place them in memory). -/
def polySubScaled (F f : List (List Nat)) (k : List Int) (sch scl logn : Nat) : List (List Nat) :=
  (List.range (2 ^ logn)).foldl (fun F u => subScaledRow (2 ^ logn) f sch scl u (-(k[u]!)) F) F

end Verif.CRef.Kg
