import Verif.CRef.Shake
import Verif.CRef.Vrfy

/-! # `hash_to_point_ct`, common.c 107-290: the constant-time hash to point -/

namespace Verif.CRef

/-- `overtab`, common.c 142-153. -/
def overtab : List Nat := [0, 65, 67, 71, 77, 86, 100, 122, 154, 205, 287]

/-- One sample, common.c 176-180: the word reduced modulo q, or `0xFFFF` when it is rejected; `uint32_t` arithmetic, then the cast to `uint16_t`. -/
def ctSample (w : Nat) : Nat :=
  let wr := sub32 w (24578 &&& sub32 (sub32 w 24578 >>> 31) 1)
  let wr := sub32 wr (24578 &&& sub32 (sub32 wr 24578 >>> 31) 1)
  let wr := sub32 wr (12289 &&& sub32 (sub32 wr 12289 >>> 31) 1)
  let wr := wr ||| sub32 (sub32 w 61445 >>> 31) 1
  u16 wr

/-- The first loop, common.c 170-193: `m` samples.  The arrays `x`, `tt1`, `tt2` are one list: entry `u` is `x[u]`, `tt1[u - n]` or `tt2[u - 2n]`. -/
def ctRead : Nat → Shake.Ctx → List Nat → List Nat
  | 0, _, a => a
  | k + 1, c, a =>
    let r := Shake.extract c 2
    ctRead k r.1 (a ++ [ctSample ((r.2.getD 0 0 <<< 8) ||| r.2.getD 1 0)])

/-- The body of the inner loop, common.c 222-288. -/
def ctStep (p : Nat) (st : Nat × List Nat) (u : Nat) : Nat × List Nat :=
  let v := st.1
  let a := st.2
  let sv := a[u]!
  let j := sub32 u v
  let mk := sub32 (sv >>> 15) 1
  let v := sub32 v mk
  if u < p then (v, a)
  else
    let dv := a[u - p]!
    let mk := mk &&& neg32 (((j &&& p) + 0x1FF) >>> 9)
    (v, (a.set u (u16 (sv ^^^ (mk &&& (sv ^^^ dv))))).set (u - p) (u16 (dv ^^^ (mk &&& (sv ^^^ dv)))))

/-- One pass, common.c 218-289. -/
def ctPass (p m : Nat) (a : List Nat) : List Nat := ((List.range m).foldl (ctStep p) (0, a)).2

/-- The loop over `p`, common.c 204-289; `fuel` bounds the number of passes. -/
def ctLoop (over m : Nat) : Nat → Nat → List Nat → List Nat
  | 0, _, a => a
  | fuel + 1, p, a => if p ≤ over then ctLoop over m fuel (p <<< 1) (ctPass p m a) else a

/-- `hash_to_point_ct`, common.c 108-290; at most nine passes, as no entry of `overtab` reaches 512. -/
def hashToPointCt (c : Shake.Ctx) (logn : Nat) : List Nat :=
  let n := 2 ^ logn
  let over := overtab.getD logn 0
  let m := n + over
  (ctLoop over m 9 1 (ctRead m c [])).take n

end Verif.CRef
