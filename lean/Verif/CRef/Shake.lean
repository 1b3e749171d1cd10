import Verif.Bits
import Verif.CRef.Keccak

/-! # `falcon/nistfalcon/src/shake.c`

`uint64_t` is `BitVec 64`.  The statements of the loop body of `process_block` are transcribed one by one, `A[i] = …` being `List.set`, and are grouped into one
definition for each step of the permutation. -/

namespace Verif.CRef

open Verif.Keccak.Spec (Lane)

namespace Shake

/-- `RC`, shake.c 40-53. -/
def RC : List Nat := [0x1, 0x8082, 0x800000000000808a, 0x8000000080008000, 0x808b, 0x80000001, 0x8000000080008081, 0x8000000000008009, 0x8a, 0x88, 0x80008009, 0x8000000a, 0x8000808b, 0x800000000000008b, 0x8000000000008089, 0x8000000000008003, 0x8000000000008002, 0x8000000000000080, 0x800a, 0x800000008000000a, 0x8000000080008081, 0x8000000000008080, 0x80000001, 0x8000000080008008]

/-- The inversion of six words, shake.c 71-76 and 478-483. -/
def invert (A : List Lane) : List Lane :=
  [1, 2, 8, 12, 17, 20].foldl (fun A i => A.set i (~~~(lane A i))) A

/-- `t0` of round 1, shake.c 84-92. -/
def theta1_0 (A : List Lane) : Lane :=
  let tt0 := lane A 1 ^^^ lane A 6
  let tt1 := lane A 11 ^^^ lane A 16
  let tt0 := tt0 ^^^ (lane A 21 ^^^ tt1)
  let tt0 := (tt0 <<< 1) ||| (tt0 >>> 63)
  let tt2 := lane A 4 ^^^ lane A 9
  let tt3 := lane A 14 ^^^ lane A 19
  let tt0 := tt0 ^^^ (lane A 24)
  let tt2 := tt2 ^^^ (tt3)
  let t0 := tt0 ^^^ tt2
  t0

/-- `t1` of round 1, shake.c 94-102. -/
def theta1_1 (A : List Lane) : Lane :=
  let tt0 := lane A 2 ^^^ lane A 7
  let tt1 := lane A 12 ^^^ lane A 17
  let tt0 := tt0 ^^^ (lane A 22 ^^^ tt1)
  let tt0 := (tt0 <<< 1) ||| (tt0 >>> 63)
  let tt2 := lane A 0 ^^^ lane A 5
  let tt3 := lane A 10 ^^^ lane A 15
  let tt0 := tt0 ^^^ (lane A 20)
  let tt2 := tt2 ^^^ (tt3)
  let t1 := tt0 ^^^ tt2
  t1

/-- `t2` of round 1, shake.c 104-112. -/
def theta1_2 (A : List Lane) : Lane :=
  let tt0 := lane A 3 ^^^ lane A 8
  let tt1 := lane A 13 ^^^ lane A 18
  let tt0 := tt0 ^^^ (lane A 23 ^^^ tt1)
  let tt0 := (tt0 <<< 1) ||| (tt0 >>> 63)
  let tt2 := lane A 1 ^^^ lane A 6
  let tt3 := lane A 11 ^^^ lane A 16
  let tt0 := tt0 ^^^ (lane A 21)
  let tt2 := tt2 ^^^ (tt3)
  let t2 := tt0 ^^^ tt2
  t2

/-- `t3` of round 1, shake.c 114-122. -/
def theta1_3 (A : List Lane) : Lane :=
  let tt0 := lane A 4 ^^^ lane A 9
  let tt1 := lane A 14 ^^^ lane A 19
  let tt0 := tt0 ^^^ (lane A 24 ^^^ tt1)
  let tt0 := (tt0 <<< 1) ||| (tt0 >>> 63)
  let tt2 := lane A 2 ^^^ lane A 7
  let tt3 := lane A 12 ^^^ lane A 17
  let tt0 := tt0 ^^^ (lane A 22)
  let tt2 := tt2 ^^^ (tt3)
  let t3 := tt0 ^^^ tt2
  t3

/-- `t4` of round 1, shake.c 124-132. -/
def theta1_4 (A : List Lane) : Lane :=
  let tt0 := lane A 0 ^^^ lane A 5
  let tt1 := lane A 10 ^^^ lane A 15
  let tt0 := tt0 ^^^ (lane A 20 ^^^ tt1)
  let tt0 := (tt0 <<< 1) ||| (tt0 >>> 63)
  let tt2 := lane A 3 ^^^ lane A 8
  let tt3 := lane A 13 ^^^ lane A 18
  let tt0 := tt0 ^^^ (lane A 23)
  let tt2 := tt2 ^^^ (tt3)
  let t4 := tt0 ^^^ tt2
  t4

/-- theta of round 1, shake.c 134-158. -/
def xors1 (t0 t1 t2 t3 t4 : Lane) (A : List Lane) : List Lane :=
  let A := A.set 0 (lane A 0 ^^^ t0)
  let A := A.set 5 (lane A 5 ^^^ t0)
  let A := A.set 10 (lane A 10 ^^^ t0)
  let A := A.set 15 (lane A 15 ^^^ t0)
  let A := A.set 20 (lane A 20 ^^^ t0)
  let A := A.set 1 (lane A 1 ^^^ t1)
  let A := A.set 6 (lane A 6 ^^^ t1)
  let A := A.set 11 (lane A 11 ^^^ t1)
  let A := A.set 16 (lane A 16 ^^^ t1)
  let A := A.set 21 (lane A 21 ^^^ t1)
  let A := A.set 2 (lane A 2 ^^^ t2)
  let A := A.set 7 (lane A 7 ^^^ t2)
  let A := A.set 12 (lane A 12 ^^^ t2)
  let A := A.set 17 (lane A 17 ^^^ t2)
  let A := A.set 22 (lane A 22 ^^^ t2)
  let A := A.set 3 (lane A 3 ^^^ t3)
  let A := A.set 8 (lane A 8 ^^^ t3)
  let A := A.set 13 (lane A 13 ^^^ t3)
  let A := A.set 18 (lane A 18 ^^^ t3)
  let A := A.set 23 (lane A 23 ^^^ t3)
  let A := A.set 4 (lane A 4 ^^^ t4)
  let A := A.set 9 (lane A 9 ^^^ t4)
  let A := A.set 14 (lane A 14 ^^^ t4)
  let A := A.set 19 (lane A 19 ^^^ t4)
  let A := A.set 24 (lane A 24 ^^^ t4)
  A

/-- rho of round 1, shake.c 159-182. -/
def rots1 (A : List Lane) : List Lane :=
  let A := A.set 5 ((lane A 5 <<< 36) ||| (lane A 5 >>> (64 - 36)))
  let A := A.set 10 ((lane A 10 <<< 3) ||| (lane A 10 >>> (64 - 3)))
  let A := A.set 15 ((lane A 15 <<< 41) ||| (lane A 15 >>> (64 - 41)))
  let A := A.set 20 ((lane A 20 <<< 18) ||| (lane A 20 >>> (64 - 18)))
  let A := A.set 1 ((lane A 1 <<< 1) ||| (lane A 1 >>> (64 - 1)))
  let A := A.set 6 ((lane A 6 <<< 44) ||| (lane A 6 >>> (64 - 44)))
  let A := A.set 11 ((lane A 11 <<< 10) ||| (lane A 11 >>> (64 - 10)))
  let A := A.set 16 ((lane A 16 <<< 45) ||| (lane A 16 >>> (64 - 45)))
  let A := A.set 21 ((lane A 21 <<< 2) ||| (lane A 21 >>> (64 - 2)))
  let A := A.set 2 ((lane A 2 <<< 62) ||| (lane A 2 >>> (64 - 62)))
  let A := A.set 7 ((lane A 7 <<< 6) ||| (lane A 7 >>> (64 - 6)))
  let A := A.set 12 ((lane A 12 <<< 43) ||| (lane A 12 >>> (64 - 43)))
  let A := A.set 17 ((lane A 17 <<< 15) ||| (lane A 17 >>> (64 - 15)))
  let A := A.set 22 ((lane A 22 <<< 61) ||| (lane A 22 >>> (64 - 61)))
  let A := A.set 3 ((lane A 3 <<< 28) ||| (lane A 3 >>> (64 - 28)))
  let A := A.set 8 ((lane A 8 <<< 55) ||| (lane A 8 >>> (64 - 55)))
  let A := A.set 13 ((lane A 13 <<< 25) ||| (lane A 13 >>> (64 - 25)))
  let A := A.set 18 ((lane A 18 <<< 21) ||| (lane A 18 >>> (64 - 21)))
  let A := A.set 23 ((lane A 23 <<< 56) ||| (lane A 23 >>> (64 - 56)))
  let A := A.set 4 ((lane A 4 <<< 27) ||| (lane A 4 >>> (64 - 27)))
  let A := A.set 9 ((lane A 9 <<< 20) ||| (lane A 9 >>> (64 - 20)))
  let A := A.set 14 ((lane A 14 <<< 39) ||| (lane A 14 >>> (64 - 39)))
  let A := A.set 19 ((lane A 19 <<< 8) ||| (lane A 19 >>> (64 - 8)))
  let A := A.set 24 ((lane A 24 <<< 14) ||| (lane A 24 >>> (64 - 14)))
  A

/-- chi of round 1, plane 0, shake.c 184-199. -/
def chi1_0 (A : List Lane) : List Lane :=
  let bnn := ~~~(lane A 12)
  let kt := lane A 6 ||| lane A 12
  let c0 := lane A 0 ^^^ kt
  let kt := bnn ||| lane A 18
  let c1 := lane A 6 ^^^ kt
  let kt := lane A 18 &&& lane A 24
  let c2 := lane A 12 ^^^ kt
  let kt := lane A 24 ||| lane A 0
  let c3 := lane A 18 ^^^ kt
  let kt := lane A 0 &&& lane A 6
  let c4 := lane A 24 ^^^ kt
  let A := A.set 0 (c0)
  let A := A.set 6 (c1)
  let A := A.set 12 (c2)
  let A := A.set 18 (c3)
  let A := A.set 24 (c4)
  A

/-- chi of round 1, plane 1, shake.c 200-215. -/
def chi1_1 (A : List Lane) : List Lane :=
  let bnn := ~~~(lane A 22)
  let kt := lane A 9 ||| lane A 10
  let c0 := lane A 3 ^^^ kt
  let kt := lane A 10 &&& lane A 16
  let c1 := lane A 9 ^^^ kt
  let kt := lane A 16 ||| bnn
  let c2 := lane A 10 ^^^ kt
  let kt := lane A 22 ||| lane A 3
  let c3 := lane A 16 ^^^ kt
  let kt := lane A 3 &&& lane A 9
  let c4 := lane A 22 ^^^ kt
  let A := A.set 3 (c0)
  let A := A.set 9 (c1)
  let A := A.set 10 (c2)
  let A := A.set 16 (c3)
  let A := A.set 22 (c4)
  A

/-- chi of round 1, plane 2, shake.c 216-231. -/
def chi1_2 (A : List Lane) : List Lane :=
  let bnn := ~~~(lane A 19)
  let kt := lane A 7 ||| lane A 13
  let c0 := lane A 1 ^^^ kt
  let kt := lane A 13 &&& lane A 19
  let c1 := lane A 7 ^^^ kt
  let kt := bnn &&& lane A 20
  let c2 := lane A 13 ^^^ kt
  let kt := lane A 20 ||| lane A 1
  let c3 := bnn ^^^ kt
  let kt := lane A 1 &&& lane A 7
  let c4 := lane A 20 ^^^ kt
  let A := A.set 1 (c0)
  let A := A.set 7 (c1)
  let A := A.set 13 (c2)
  let A := A.set 19 (c3)
  let A := A.set 20 (c4)
  A

/-- chi of round 1, plane 3, shake.c 232-247. -/
def chi1_3 (A : List Lane) : List Lane :=
  let bnn := ~~~(lane A 17)
  let kt := lane A 5 &&& lane A 11
  let c0 := lane A 4 ^^^ kt
  let kt := lane A 11 ||| lane A 17
  let c1 := lane A 5 ^^^ kt
  let kt := bnn ||| lane A 23
  let c2 := lane A 11 ^^^ kt
  let kt := lane A 23 &&& lane A 4
  let c3 := bnn ^^^ kt
  let kt := lane A 4 ||| lane A 5
  let c4 := lane A 23 ^^^ kt
  let A := A.set 4 (c0)
  let A := A.set 5 (c1)
  let A := A.set 11 (c2)
  let A := A.set 17 (c3)
  let A := A.set 23 (c4)
  A

/-- chi of round 1, plane 4, shake.c 248-263. -/
def chi1_4 (A : List Lane) : List Lane :=
  let bnn := ~~~(lane A 8)
  let kt := bnn &&& lane A 14
  let c0 := lane A 2 ^^^ kt
  let kt := lane A 14 ||| lane A 15
  let c1 := bnn ^^^ kt
  let kt := lane A 15 &&& lane A 21
  let c2 := lane A 14 ^^^ kt
  let kt := lane A 21 ||| lane A 2
  let c3 := lane A 15 ^^^ kt
  let kt := lane A 2 &&& lane A 8
  let c4 := lane A 21 ^^^ kt
  let A := A.set 2 (c0)
  let A := A.set 8 (c1)
  let A := A.set 14 (c2)
  let A := A.set 15 (c3)
  let A := A.set 21 (c4)
  A

/-- iota of round 1, shake.c 264-264. -/
def iota1 (rc : Lane) (A : List Lane) : List Lane :=
  let A := A.set 0 (lane A 0 ^^^ rc)
  A

/-- `t0` of round 2, shake.c 266-274. -/
def theta2_0 (A : List Lane) : Lane :=
  let tt0 := lane A 6 ^^^ lane A 9
  let tt1 := lane A 7 ^^^ lane A 5
  let tt0 := tt0 ^^^ (lane A 8 ^^^ tt1)
  let tt0 := (tt0 <<< 1) ||| (tt0 >>> 63)
  let tt2 := lane A 24 ^^^ lane A 22
  let tt3 := lane A 20 ^^^ lane A 23
  let tt0 := tt0 ^^^ (lane A 21)
  let tt2 := tt2 ^^^ (tt3)
  let t0 := tt0 ^^^ tt2
  t0

/-- `t1` of round 2, shake.c 276-284. -/
def theta2_1 (A : List Lane) : Lane :=
  let tt0 := lane A 12 ^^^ lane A 10
  let tt1 := lane A 13 ^^^ lane A 11
  let tt0 := tt0 ^^^ (lane A 14 ^^^ tt1)
  let tt0 := (tt0 <<< 1) ||| (tt0 >>> 63)
  let tt2 := lane A 0 ^^^ lane A 3
  let tt3 := lane A 1 ^^^ lane A 4
  let tt0 := tt0 ^^^ (lane A 2)
  let tt2 := tt2 ^^^ (tt3)
  let t1 := tt0 ^^^ tt2
  t1

/-- `t2` of round 2, shake.c 286-294. -/
def theta2_2 (A : List Lane) : Lane :=
  let tt0 := lane A 18 ^^^ lane A 16
  let tt1 := lane A 19 ^^^ lane A 17
  let tt0 := tt0 ^^^ (lane A 15 ^^^ tt1)
  let tt0 := (tt0 <<< 1) ||| (tt0 >>> 63)
  let tt2 := lane A 6 ^^^ lane A 9
  let tt3 := lane A 7 ^^^ lane A 5
  let tt0 := tt0 ^^^ (lane A 8)
  let tt2 := tt2 ^^^ (tt3)
  let t2 := tt0 ^^^ tt2
  t2

/-- `t3` of round 2, shake.c 296-304. -/
def theta2_3 (A : List Lane) : Lane :=
  let tt0 := lane A 24 ^^^ lane A 22
  let tt1 := lane A 20 ^^^ lane A 23
  let tt0 := tt0 ^^^ (lane A 21 ^^^ tt1)
  let tt0 := (tt0 <<< 1) ||| (tt0 >>> 63)
  let tt2 := lane A 12 ^^^ lane A 10
  let tt3 := lane A 13 ^^^ lane A 11
  let tt0 := tt0 ^^^ (lane A 14)
  let tt2 := tt2 ^^^ (tt3)
  let t3 := tt0 ^^^ tt2
  t3

/-- `t4` of round 2, shake.c 306-314. -/
def theta2_4 (A : List Lane) : Lane :=
  let tt0 := lane A 0 ^^^ lane A 3
  let tt1 := lane A 1 ^^^ lane A 4
  let tt0 := tt0 ^^^ (lane A 2 ^^^ tt1)
  let tt0 := (tt0 <<< 1) ||| (tt0 >>> 63)
  let tt2 := lane A 18 ^^^ lane A 16
  let tt3 := lane A 19 ^^^ lane A 17
  let tt0 := tt0 ^^^ (lane A 15)
  let tt2 := tt2 ^^^ (tt3)
  let t4 := tt0 ^^^ tt2
  t4

/-- theta of round 2, shake.c 316-340. -/
def xors2 (t0 t1 t2 t3 t4 : Lane) (A : List Lane) : List Lane :=
  let A := A.set 0 (lane A 0 ^^^ t0)
  let A := A.set 3 (lane A 3 ^^^ t0)
  let A := A.set 1 (lane A 1 ^^^ t0)
  let A := A.set 4 (lane A 4 ^^^ t0)
  let A := A.set 2 (lane A 2 ^^^ t0)
  let A := A.set 6 (lane A 6 ^^^ t1)
  let A := A.set 9 (lane A 9 ^^^ t1)
  let A := A.set 7 (lane A 7 ^^^ t1)
  let A := A.set 5 (lane A 5 ^^^ t1)
  let A := A.set 8 (lane A 8 ^^^ t1)
  let A := A.set 12 (lane A 12 ^^^ t2)
  let A := A.set 10 (lane A 10 ^^^ t2)
  let A := A.set 13 (lane A 13 ^^^ t2)
  let A := A.set 11 (lane A 11 ^^^ t2)
  let A := A.set 14 (lane A 14 ^^^ t2)
  let A := A.set 18 (lane A 18 ^^^ t3)
  let A := A.set 16 (lane A 16 ^^^ t3)
  let A := A.set 19 (lane A 19 ^^^ t3)
  let A := A.set 17 (lane A 17 ^^^ t3)
  let A := A.set 15 (lane A 15 ^^^ t3)
  let A := A.set 24 (lane A 24 ^^^ t4)
  let A := A.set 22 (lane A 22 ^^^ t4)
  let A := A.set 20 (lane A 20 ^^^ t4)
  let A := A.set 23 (lane A 23 ^^^ t4)
  let A := A.set 21 (lane A 21 ^^^ t4)
  A

/-- rho of round 2, shake.c 341-364. -/
def rots2 (A : List Lane) : List Lane :=
  let A := A.set 3 ((lane A 3 <<< 36) ||| (lane A 3 >>> (64 - 36)))
  let A := A.set 1 ((lane A 1 <<< 3) ||| (lane A 1 >>> (64 - 3)))
  let A := A.set 4 ((lane A 4 <<< 41) ||| (lane A 4 >>> (64 - 41)))
  let A := A.set 2 ((lane A 2 <<< 18) ||| (lane A 2 >>> (64 - 18)))
  let A := A.set 6 ((lane A 6 <<< 1) ||| (lane A 6 >>> (64 - 1)))
  let A := A.set 9 ((lane A 9 <<< 44) ||| (lane A 9 >>> (64 - 44)))
  let A := A.set 7 ((lane A 7 <<< 10) ||| (lane A 7 >>> (64 - 10)))
  let A := A.set 5 ((lane A 5 <<< 45) ||| (lane A 5 >>> (64 - 45)))
  let A := A.set 8 ((lane A 8 <<< 2) ||| (lane A 8 >>> (64 - 2)))
  let A := A.set 12 ((lane A 12 <<< 62) ||| (lane A 12 >>> (64 - 62)))
  let A := A.set 10 ((lane A 10 <<< 6) ||| (lane A 10 >>> (64 - 6)))
  let A := A.set 13 ((lane A 13 <<< 43) ||| (lane A 13 >>> (64 - 43)))
  let A := A.set 11 ((lane A 11 <<< 15) ||| (lane A 11 >>> (64 - 15)))
  let A := A.set 14 ((lane A 14 <<< 61) ||| (lane A 14 >>> (64 - 61)))
  let A := A.set 18 ((lane A 18 <<< 28) ||| (lane A 18 >>> (64 - 28)))
  let A := A.set 16 ((lane A 16 <<< 55) ||| (lane A 16 >>> (64 - 55)))
  let A := A.set 19 ((lane A 19 <<< 25) ||| (lane A 19 >>> (64 - 25)))
  let A := A.set 17 ((lane A 17 <<< 21) ||| (lane A 17 >>> (64 - 21)))
  let A := A.set 15 ((lane A 15 <<< 56) ||| (lane A 15 >>> (64 - 56)))
  let A := A.set 24 ((lane A 24 <<< 27) ||| (lane A 24 >>> (64 - 27)))
  let A := A.set 22 ((lane A 22 <<< 20) ||| (lane A 22 >>> (64 - 20)))
  let A := A.set 20 ((lane A 20 <<< 39) ||| (lane A 20 >>> (64 - 39)))
  let A := A.set 23 ((lane A 23 <<< 8) ||| (lane A 23 >>> (64 - 8)))
  let A := A.set 21 ((lane A 21 <<< 14) ||| (lane A 21 >>> (64 - 14)))
  A

/-- chi of round 2, plane 0, shake.c 366-381. -/
def chi2_0 (A : List Lane) : List Lane :=
  let bnn := ~~~(lane A 13)
  let kt := lane A 9 ||| lane A 13
  let c0 := lane A 0 ^^^ kt
  let kt := bnn ||| lane A 17
  let c1 := lane A 9 ^^^ kt
  let kt := lane A 17 &&& lane A 21
  let c2 := lane A 13 ^^^ kt
  let kt := lane A 21 ||| lane A 0
  let c3 := lane A 17 ^^^ kt
  let kt := lane A 0 &&& lane A 9
  let c4 := lane A 21 ^^^ kt
  let A := A.set 0 (c0)
  let A := A.set 9 (c1)
  let A := A.set 13 (c2)
  let A := A.set 17 (c3)
  let A := A.set 21 (c4)
  A

/-- chi of round 2, plane 1, shake.c 382-397. -/
def chi2_1 (A : List Lane) : List Lane :=
  let bnn := ~~~(lane A 14)
  let kt := lane A 22 ||| lane A 1
  let c0 := lane A 18 ^^^ kt
  let kt := lane A 1 &&& lane A 5
  let c1 := lane A 22 ^^^ kt
  let kt := lane A 5 ||| bnn
  let c2 := lane A 1 ^^^ kt
  let kt := lane A 14 ||| lane A 18
  let c3 := lane A 5 ^^^ kt
  let kt := lane A 18 &&& lane A 22
  let c4 := lane A 14 ^^^ kt
  let A := A.set 18 (c0)
  let A := A.set 22 (c1)
  let A := A.set 1 (c2)
  let A := A.set 5 (c3)
  let A := A.set 14 (c4)
  A

/-- chi of round 2, plane 2, shake.c 398-413. -/
def chi2_2 (A : List Lane) : List Lane :=
  let bnn := ~~~(lane A 23)
  let kt := lane A 10 ||| lane A 19
  let c0 := lane A 6 ^^^ kt
  let kt := lane A 19 &&& lane A 23
  let c1 := lane A 10 ^^^ kt
  let kt := bnn &&& lane A 2
  let c2 := lane A 19 ^^^ kt
  let kt := lane A 2 ||| lane A 6
  let c3 := bnn ^^^ kt
  let kt := lane A 6 &&& lane A 10
  let c4 := lane A 2 ^^^ kt
  let A := A.set 6 (c0)
  let A := A.set 10 (c1)
  let A := A.set 19 (c2)
  let A := A.set 23 (c3)
  let A := A.set 2 (c4)
  A

/-- chi of round 2, plane 3, shake.c 414-429. -/
def chi2_3 (A : List Lane) : List Lane :=
  let bnn := ~~~(lane A 11)
  let kt := lane A 3 &&& lane A 7
  let c0 := lane A 24 ^^^ kt
  let kt := lane A 7 ||| lane A 11
  let c1 := lane A 3 ^^^ kt
  let kt := bnn ||| lane A 15
  let c2 := lane A 7 ^^^ kt
  let kt := lane A 15 &&& lane A 24
  let c3 := bnn ^^^ kt
  let kt := lane A 24 ||| lane A 3
  let c4 := lane A 15 ^^^ kt
  let A := A.set 24 (c0)
  let A := A.set 3 (c1)
  let A := A.set 7 (c2)
  let A := A.set 11 (c3)
  let A := A.set 15 (c4)
  A

/-- chi of round 2, plane 4, shake.c 430-445. -/
def chi2_4 (A : List Lane) : List Lane :=
  let bnn := ~~~(lane A 16)
  let kt := bnn &&& lane A 20
  let c0 := lane A 12 ^^^ kt
  let kt := lane A 20 ||| lane A 4
  let c1 := bnn ^^^ kt
  let kt := lane A 4 &&& lane A 8
  let c2 := lane A 20 ^^^ kt
  let kt := lane A 8 ||| lane A 12
  let c3 := lane A 4 ^^^ kt
  let kt := lane A 12 &&& lane A 16
  let c4 := lane A 8 ^^^ kt
  let A := A.set 12 (c0)
  let A := A.set 16 (c1)
  let A := A.set 20 (c2)
  let A := A.set 4 (c3)
  let A := A.set 8 (c4)
  A

/-- iota of round 2, shake.c 446-446. -/
def iota2 (rc : Lane) (A : List Lane) : List Lane :=
  let A := A.set 0 (lane A 0 ^^^ rc)
  A

/-- The words are put back into their places, shake.c 447-472. -/
def shuffle (A : List Lane) : List Lane :=
  let t := lane A 5
  let A := A.set 5 (lane A 18)
  let A := A.set 18 (lane A 11)
  let A := A.set 11 (lane A 10)
  let A := A.set 10 (lane A 6)
  let A := A.set 6 (lane A 22)
  let A := A.set 22 (lane A 20)
  let A := A.set 20 (lane A 12)
  let A := A.set 12 (lane A 19)
  let A := A.set 19 (lane A 15)
  let A := A.set 15 (lane A 24)
  let A := A.set 24 (lane A 8)
  let A := A.set 8 (t)
  let t := lane A 1
  let A := A.set 1 (lane A 9)
  let A := A.set 9 (lane A 14)
  let A := A.set 14 (lane A 2)
  let A := A.set 2 (lane A 13)
  let A := A.set 13 (lane A 23)
  let A := A.set 23 (lane A 4)
  let A := A.set 4 (lane A 21)
  let A := A.set 21 (lane A 16)
  let A := A.set 16 (lane A 3)
  let A := A.set 3 (lane A 17)
  let A := A.set 17 (lane A 7)
  let A := A.set 7 (t)
  A

/-- Two rounds: the body of the loop, shake.c 82-473. -/
def twoRounds (j : Nat) (A : List Lane) : List Lane :=
  let A := rots1 (xors1 (theta1_0 A) (theta1_1 A) (theta1_2 A) (theta1_3 A) (theta1_4 A) A)
  let A := iota1 (BitVec.ofNat 64 (RC.getD (j + 0) 0)) (chi1_4 (chi1_3 (chi1_2 (chi1_1 (chi1_0 A)))))
  let A := rots2 (xors2 (theta2_0 A) (theta2_1 A) (theta2_2 A) (theta2_3 A) (theta2_4 A) A)
  let A := iota2 (BitVec.ofNat 64 (RC.getD (j + 1) 0)) (chi2_4 (chi2_3 (chi2_2 (chi2_1 (chi2_0 A)))))
  shuffle A

/-- `process_block`, shake.c 58-484. -/
def processBlock (A : List Lane) : List Lane :=
  invert ((List.range 12).foldl (fun A i => twoRounds (2 * i) A) (invert A))

/-- `inner_shake256_context`: the state words and the position. -/
structure Ctx where
  A : List Lane
  dptr : Nat
deriving DecidableEq

/-- `i_shake256_init`, shake.c 488-498. -/
def init : Ctx := ⟨List.replicate 25 0#64, 0⟩

/-- The statement `A[v >> 3] ^= (uint64_t)x << ((v & 7) << 3)`, shake.c 519 and 543-544. -/
def xorByte (A : List Lane) (v x : Nat) : List Lane :=
  A.set (v >>> 3) (lane A (v >>> 3) ^^^ (BitVec.ofNat 64 x <<< ((v &&& 7) <<< 3)))

/-- The inner `for` loop, shake.c 515-520. -/
def xorBytes (A : List Lane) (dptr : Nat) (d : Bytes) : List Lane :=
  (List.range d.length).foldl (fun A u => xorByte A (u + dptr) (d.getD u 0)) A

/-- The `while` loop of `i_shake256_inject`, shake.c 507-528; each turn consumes at least one byte. -/
def injectLoop : Nat → Ctx → Bytes → Ctx
  | 0, c, _ => c
  | fuel + 1, c, input =>
    if input.length > 0 then
      let clen := 136 - c.dptr
      let clen := if clen > input.length then input.length else clen
      let A := xorBytes c.A c.dptr (input.take clen)
      let dptr := c.dptr + clen
      injectLoop fuel (if dptr = 136 then ⟨processBlock A, 0⟩ else ⟨A, dptr⟩) (input.drop clen)
    else c

/-- `i_shake256_inject`, shake.c 501-530. -/
def inject (c : Ctx) (input : Bytes) : Ctx := injectLoop input.length c input

/-- `i_shake256_flip`, shake.c 532-547. -/
def flip (c : Ctx) : Ctx :=
  let A := xorByte c.A c.dptr 0x1F
  let A := A.set 16 (lane A 16 ^^^ ((0x80#64) <<< 56))
  ⟨A, 136⟩

/-- The byte `A[dptr >> 3] >> ((dptr & 7) << 3)`, shake.c 568, cut to `uint8_t`. -/
def outByte (A : List Lane) (dptr : Nat) : Nat := (lane A (dptr >>> 3) >>> ((dptr &&& 7) <<< 3)).toNat % 256

/-- The loop of `i_shake256_extract`, shake.c 555-571. -/
def extractLoop : Nat → Ctx → Nat → Bytes → Ctx × Bytes
  | 0, c, _, out => (c, out)
  | fuel + 1, c, len, out =>
    if len > 0 then
      let c := if c.dptr = 136 then ⟨processBlock c.A, 0⟩ else c
      let clen := 136 - c.dptr
      let clen := if clen > len then len else clen
      extractLoop fuel ⟨c.A, c.dptr + clen⟩ (len - clen) (out ++ (List.range clen).map fun i => outByte c.A (c.dptr + i))
    else (c, out)

/-- `i_shake256_extract`, shake.c 549-573. -/
def extract (c : Ctx) (len : Nat) : Ctx × Bytes := extractLoop len c len []

end Shake

/-- `hash_to_point_vartime`, common.c 35-69. -/
def shakeHashToPoint (c : Shake.Ctx) (logn fuel : Nat) : Option (List Nat) :=
  pointLoop (fun c => Shake.extract c 2) fuel c (2 ^ logn) []

end Verif.CRef
