import Verif.Bits
import Verif.CRef.Tables

/-! # The arithmetic of the C reference code

Models `falcon/nistfalcon/src/vrfy.c` and the norm checks of `falcon/nistfalcon/src/common.c`.
`uint32_t` and `uint16_t` values are natural numbers; every operation that can leave the type is reduced explicitly, so wrapping is part of the model.
`int16_t`, `int8_t` and `int32_t` values are integers.  Arrays are lists, in-place updates return the new list; temporary buffers are not modelled as memory.
`a[u]` with `u` below `n = 2^logn` is always inside the caller's arrays of 512 entries (`logn = 9`). -/

namespace Verif.CRef

/-! ## Fixed-width integers -/

/-- `uint32_t` addition. -/
def add32 (a b : Nat) : Nat := (a + b) % 4294967296
/-- `uint32_t` subtraction. -/
def sub32 (a b : Nat) : Nat := (a + (4294967296 - b % 4294967296)) % 4294967296
/-- `uint32_t` multiplication. -/
def mul32 (a b : Nat) : Nat := a * b % 4294967296
/-- `uint32_t` unary minus. -/
def neg32 (a : Nat) : Nat := sub32 0 a
/-- Cast to `uint32_t`. -/
def u32 (x : Int) : Nat := (x % 4294967296).toNat
/-- Cast to `uint16_t`. -/
def u16 (x : Nat) : Nat := x % 65536
/-- Cast of an unsigned value to `int16_t` (two's complement). -/
def i16 (x : Nat) : Int := if x % 65536 < 32768 then ((x % 65536 : Nat) : Int) else ((x % 65536 : Nat) : Int) - 65536
/-- Reinterpretation of a `uint32_t` as `int32_t`. -/
def i32 (x : Nat) : Int := if x % 4294967296 < 2147483648 then ((x % 4294967296 : Nat) : Int) else ((x % 4294967296 : Nat) : Int) - 4294967296

/-! ## Arithmetic modulo q, vrfy.c 322-500 -/

/-- `mq_conv_small`, vrfy.c 326-337: also the inline reduction of `int16_t` values, vrfy.c 669-671, 701-703, 825-827, 857-859, 861-863. -/
def convSmall (x : Int) : Nat := let y := u32 x; add32 y (12289 &&& neg32 (y >>> 31))

/-- `mq_add`, vrfy.c 342-357. -/
def mqAdd (x y : Nat) : Nat := let d := sub32 (add32 x y) 12289; add32 d (12289 &&& neg32 (d >>> 31))

/-- `mq_sub`, vrfy.c 362-374. -/
def mqSub (x y : Nat) : Nat := let d := sub32 x y; add32 d (12289 &&& neg32 (d >>> 31))

/-- `mq_rshift1`, vrfy.c 379-384. -/
def mqRshift1 (x : Nat) : Nat := (add32 x (12289 &&& neg32 (x &&& 1))) >>> 1

/-- `mq_montymul`, vrfy.c 391-422: `Q0I = 12287`. -/
def mqMontymul (x y : Nat) : Nat :=
  let z := mul32 x y
  let w := mul32 (mul32 z 12287 &&& 0xFFFF) 12289
  let z := add32 z w >>> 16
  let z := sub32 z 12289
  add32 z (12289 &&& neg32 (z >>> 31))

/-- `mq_div_12289`, vrfy.c 436-497: the addition chain for the exponent `q - 2`; `R2 = 10952`. -/
def mqDiv (x y : Nat) : Nat :=
  let sqr := fun a => mqMontymul a a
  let y0 := mqMontymul y 10952
  let y1 := sqr y0
  let y2 := mqMontymul y1 y0
  let y3 := mqMontymul y2 y1
  let y4 := sqr y3
  let y5 := sqr y4
  let y6 := sqr y5
  let y7 := sqr y6
  let y8 := sqr y7
  let y9 := mqMontymul y8 y2
  let y10 := mqMontymul y9 y8
  let y11 := sqr y10
  let y12 := sqr y11
  let y13 := mqMontymul y12 y9
  let y14 := sqr y13
  let y15 := sqr y14
  let y16 := mqMontymul y15 y10
  let y17 := sqr y16
  let y18 := mqMontymul y17 y0
  mqMontymul y18 x

/-! ## Transforms, vrfy.c 502-594 -/

/-- One butterfly of `mq_NTT`, vrfy.c 524-529. -/
def fwButterfly (s ht : Nat) (a : List Nat) (j : Nat) : List Nat :=
  let u := a[j]!
  let v := mqMontymul a[j + ht]! s
  (a.set j (u16 (mqAdd u v))).set (j + ht) (u16 (mqSub u v))

/-- The loop over `j`, vrfy.c 520-530: from `j1` to `j1 + ht - 1`. -/
def fwInner (s ht j1 : Nat) (a : List Nat) : List Nat := (List.range ht).foldl (fun a k => fwButterfly s ht a (j1 + k)) a

/-- The loop over `i`, vrfy.c 513-531: `j1` grows by `t`. -/
def fwMiddle (m t : Nat) (a : List Nat) : List Nat :=
  ((List.range m).foldl (fun (st : Nat × List Nat) i => (st.1 + t, fwInner gmb[m + i]! (t / 2) st.1 st.2)) (0, a)).2

/-- The loop over `m`, vrfy.c 509-533; `fuel` bounds the rounds, `n` always suffice. -/
def fwOuter (n : Nat) : Nat → Nat → Nat → List Nat → List Nat
  | 0, _, _, a => a
  | fuel + 1, t, m, a => if m < n then fwOuter n fuel (t / 2) (2 * m) (fwMiddle m t a) else a

/-- `mq_NTT`, vrfy.c 502-534. -/
def mqNTT (logn : Nat) (a : List Nat) : List Nat := fwOuter (2 ^ logn) (2 ^ logn) (2 ^ logn) 1 a

/-- One butterfly of `mq_iNTT`, vrfy.c 563-568. -/
def invButterfly (s t : Nat) (a : List Nat) (j : Nat) : List Nat :=
  let u := a[j]!
  let v := a[j + t]!
  let a := a.set j (u16 (mqAdd u v))
  let w := mqSub u v
  a.set (j + t) (u16 (mqMontymul w s))

/-- The loop over `j`, vrfy.c 559-569. -/
def invInner (s t j1 : Nat) (a : List Nat) : List Nat := (List.range t).foldl (fun a k => invButterfly s t a (j1 + k)) a

/-- The loop over `i`, vrfy.c 552-570: `j1` grows by `dt = 2 t`. -/
def invMiddle (hm t : Nat) (a : List Nat) : List Nat :=
  ((List.range hm).foldl (fun (st : Nat × List Nat) i => (st.1 + 2 * t, invInner igmb[hm + i]! t st.1 st.2)) (0, a)).2

/-- The loop over `m`, vrfy.c 547-573. -/
def invOuter : Nat → Nat → Nat → List Nat → List Nat
  | 0, _, _, a => a
  | fuel + 1, t, m, a => if m > 1 then invOuter fuel (2 * t) (m / 2) (invMiddle (m / 2) t a) else a

/-- `ni`, vrfy.c 584-588: `R = 4091` halved `logn` times. -/
def invScale : Nat → Nat
  | 0 => 4091
  | logn + 1 => mqRshift1 (invScale logn)

/-- `mq_iNTT`, vrfy.c 538-593. -/
def mqINTT (logn : Nat) (a : List Nat) : List Nat :=
  let a := invOuter (2 ^ logn) 1 (2 ^ logn) a
  (List.range (2 ^ logn)).map fun u => u16 (mqMontymul a[u]! (invScale logn))

/-- `mq_poly_tomonty`, vrfy.c 599-609. -/
def polyToMonty (logn : Nat) (f : List Nat) : List Nat := (List.range (2 ^ logn)).map fun u => u16 (mqMontymul f[u]! 10952)

/-- `mq_poly_montymul_ntt`, vrfy.c 615-625. -/
def polyMontymul (logn : Nat) (f g : List Nat) : List Nat := (List.range (2 ^ logn)).map fun u => u16 (mqMontymul f[u]! g[u]!)

/-- `mq_poly_sub`, vrfy.c 630-640. -/
def polySub (logn : Nat) (f g : List Nat) : List Nat := (List.range (2 ^ logn)).map fun u => u16 (mqSub f[u]! g[u]!)

/-- `to_ntt`, vrfy.c 652-656. -/
def toNtt (logn : Nat) (h : List Nat) : List Nat := mqNTT logn h

/-- `to_ntt_monty`, vrfy.c 645-649. -/
def toNttMonty (logn : Nat) (h : List Nat) : List Nat := polyToMonty logn (mqNTT logn h)

/-- The reduction of an array of `int16_t` modulo q, vrfy.c 665-672, 697-704, 821-828, 957-964. -/
def reduceAll (logn : Nat) (s : List Int) : List Nat := (List.range (2 ^ logn)).map fun u => u16 (convSmall s[u]!)

/-! ## The norm, common.c 291-360 -/

/-- `l2bound`, common.c 296-307. -/
def l2bound : List Nat := [0, 101498, 208714, 428865, 892039, 1852696, 3842630, 7959734, 16468416, 34034726, 70265242]

/-- One step of the accumulation, common.c 328-333: `z*z` is computed in `int32_t` (at most `2^30` for `int16_t` values). -/
def accum (st : Nat × Nat) (z : Int) : Nat × Nat := let s := add32 st.1 (u32 (z * z)); (s, st.2 ||| s)

/-- `is_short`, common.c 310-338. -/
def isShort (logn : Nat) (s1 s2 : List Int) : Bool :=
  let r := (List.range (2 ^ logn)).foldl (fun st u => accum (accum st s1[u]!) s2[u]!) (0, 0)
  let s := r.1 ||| neg32 (r.2 >>> 31)
  decide (s ≤ l2bound[logn]!)

/-- `is_short_half`, common.c 341-360. -/
def isShortHalf (logn : Nat) (sqn : Nat) (s2 : List Int) : Bool :=
  let r := (List.range (2 ^ logn)).foldl (fun st u => accum st s2[u]!) (sqn, neg32 (sqn >>> 31))
  let s := r.1 ||| neg32 (r.2 >>> 31)
  decide (s ≤ l2bound[logn]!)

/-! ## Verification, vrfy.c 683-731, 811-979 -/

/-- The centring of a residue, vrfy.c 716-722: `w -= (int32_t)(Q & -(((Q >> 1) - (uint32_t)w) >> 31))`, then a cast to `int16_t`. -/
def centre (x : Nat) : Int :=
  let w : Int := x
  let w := w - i32 (12289 &&& neg32 (sub32 (12289 >>> 1) (u32 w) >>> 31))
  i16 (u32 w)

/-- `verify_raw`, vrfy.c 685-731; `h` is the key in NTT and Montgomery form. -/
def verifyRaw (logn : Nat) (c0 : List Nat) (s2 : List Int) (h : List Nat) : Bool :=
  let tt := reduceAll logn s2
  let tt := mqNTT logn tt
  let tt := polyMontymul logn tt h
  let tt := mqINTT logn tt
  let tt := polySub logn tt c0
  let s1 := (List.range (2 ^ logn)).map fun u => centre tt[u]!
  isShort logn s1 s2

/-- `hint_epervier`, vrfy.c 659-681. -/
def hintEpervier (logn : Nat) (s2 : List Int) : Nat :=
  let t := polyToMonty logn (mqNTT logn (reduceAll logn s2))
  let hint := (List.range (2 ^ logn)).foldl (fun hint u => u16 (mqMontymul hint t[u]!)) 1
  u16 (mqDiv 1 hint)

/-- `compute_public`, vrfy.c 734-759; `none`: returns 0. -/
def computePublic (logn : Nat) (f g : List Int) : Option (List Nat) :=
  let tt := mqNTT logn (reduceAll logn f)
  let h := mqNTT logn (reduceAll logn g)
  if (List.range (2 ^ logn)).any (fun u => tt[u]! == 0) then none
  else some (mqINTT logn ((List.range (2 ^ logn)).map fun u => u16 (mqDiv h[u]! tt[u]!)))

/-- The conversion of a residue to a signed value, vrfy.c 796-798: `w -= (Q & ~-((w - (Q >> 1)) >> 31))`, read as `int32_t`. -/
def signedOf (x : Nat) : Int :=
  let w := x
  let m := 12289 &&& (4294967295 - neg32 (sub32 w (12289 >>> 1) >>> 31))
  i32 (sub32 w m)

/-- `complete_private`, vrfy.c 762-808; `none`: returns 0. -/
def completePrivate (logn : Nat) (f g F : List Int) : Option (List Int) :=
  let t1 := mqNTT logn (reduceAll logn g)
  let t2 := mqNTT logn (reduceAll logn F)
  let t1 := polyMontymul logn (polyToMonty logn t1) t2
  let t2 := mqNTT logn (reduceAll logn f)
  if (List.range (2 ^ logn)).any (fun u => t2[u]! == 0) then none
  else
    let t1 := mqINTT logn ((List.range (2 ^ logn)).map fun u => u16 (mqDiv t1[u]! t2[u]!))
    let G := (List.range (2 ^ logn)).map fun u => signedOf t1[u]!
    if G.any (fun x => decide (x < -127) || decide (x > 127)) then none else some G

/-- The flag of vrfy.c 831-834, 879-882, 935-938: the OR of `tt[u] - 1`, whose bit 31 is set iff some `tt[u]` is zero. -/
def zeroFlag (logn : Nat) (tt : List Nat) : Nat := (List.range (2 ^ logn)).foldl (fun r u => r ||| sub32 tt[u]! 1) 0

/-- `is_invertible`, vrfy.c 813-836. -/
def isInvertible (logn : Nat) (s2 : List Int) : Bool :=
  decide (sub32 1 (zeroFlag logn (mqNTT logn (reduceAll logn s2)) >>> 31) ≠ 0)

/-- The recovered key in NTT form and the result, common part of `verify_recover` (vrfy.c 840-893) and `verify_recover_epervier` (vrfy.c 897-949). -/
def recoverNtt (logn : Nat) (c0 : List Nat) (s1 s2 : List Int) : List Nat × Bool :=
  let tt := reduceAll logn s2
  let h := (List.range (2 ^ logn)).map fun u => u16 (mqSub c0[u]! (convSmall s1[u]!))
  let tt := mqNTT logn tt
  let h := mqNTT logn h
  let r := zeroFlag logn tt
  let h := (List.range (2 ^ logn)).map fun u => u16 (mqDiv h[u]! tt[u]!)
  let r := (4294967295 - r) &&& neg32 (if isShort logn s1 s2 then 1 else 0)
  (h, decide (r >>> 31 ≠ 0))

/-- `verify_recover_epervier`, vrfy.c 897-949: the key stays in NTT form. -/
def verifyRecoverEpervier (logn : Nat) (c0 : List Nat) (s1 s2 : List Int) : List Nat × Bool := recoverNtt logn c0 s1 s2

/-- `verify_recover`, vrfy.c 840-893. -/
def verifyRecover (logn : Nat) (c0 : List Nat) (s1 s2 : List Int) : List Nat × Bool :=
  let r := recoverNtt logn c0 s1 s2
  (mqINTT logn r.1, r.2)

/-- `count_nttzero`, vrfy.c 953-978. -/
def countNttzero (logn : Nat) (sig : List Int) : Nat :=
  let s2 := mqNTT logn (reduceAll logn sig)
  (List.range (2 ^ logn)).foldl (fun r u => add32 r (sub32 s2[u]! 1 >>> 31)) 0

end Verif.CRef
