import Verif.Bits
import Mathlib.Algebra.Ring.Int.Defs

/-! # NTRU equation solver

Models `pythonref/ntrugen.py` lines 15-192 (exact integer parts).  Lists are Python lists of coefficients, lowest degree first.
Multiplication helpers are generic in the coefficient ring ("integer or real" in the code). -/

namespace Verif.Ring

variable {R : Type} [CommRing R]

/-- `list[i]` for an index known to be in range in the modelled runs (0 otherwise). -/
def at' (l : List R) (i : Nat) : R := l.getD i 0

/-- In-place `l[i] += x`. -/
def addAt (l : List R) (i : Nat) (x : R) : List R := l.modify i (· + x)

/-- `karatsuba(a, b, n)`, ntrugen.py 15-40.  `fuel` bounds the recursion depth (`n` halves at each call, so `fuel = n` is enough for `n ≥ 1`;
for `n = 0` the Python recursion never ends). -/
def karatsubaAux : Nat → List R → List R → Nat → List R
  | 0, _, _, _ => []
  | fuel + 1, a, b, n =>
    if n = 1 then [at' a 0 * at' b 0, 0]
    else
      let n2 := n / 2
      let a0 := a.take n2
      let a1 := a.drop n2
      let b0 := b.take n2
      let b1 := b.drop n2
      let ax := (List.range n2).map fun i => at' a0 i + at' a1 i
      let bx := (List.range n2).map fun i => at' b0 i + at' b1 i
      let a0b0 := karatsubaAux fuel a0 b0 n2
      let a1b1 := karatsubaAux fuel a1 b1 n2
      let axbx := karatsubaAux fuel ax bx n2
      let axbx := (List.range n).foldl (fun l i => addAt l i (-(at' a0b0 i + at' a1b1 i))) axbx
      (List.range n).foldl (fun ab i => addAt (addAt (addAt ab i (at' a0b0 i)) (i + n) (at' a1b1 i)) (i + n2) (at' axbx i))
        (List.replicate (2 * n) 0)

/-- `karatsuba`, ntrugen.py 15-40. -/
def karatsuba (a b : List R) (n : Nat) : List R := karatsubaAux n a b n

/-- `karamul`, ntrugen.py 43-50. -/
def karamul (a b : List R) : List R :=
  let n := a.length
  let ab := karatsuba a b n
  (List.range n).map fun i => at' ab i - at' ab (i + n)

/-- `galois_conjugate`, ntrugen.py 53-59. -/
def galoisConjugate (a : List R) : List R := (List.range a.length).map fun i => (-1) ^ i * at' a i

/-- `field_norm`, ntrugen.py 62-76. -/
def fieldNorm (a : List R) : List R :=
  let n2 := a.length / 2
  let ae := (List.range n2).map fun i => at' a (2 * i)
  let ao := (List.range n2).map fun i => at' a (2 * i + 1)
  let ae2 := karamul ae ae
  let ao2 := karamul ao ao
  let res := (List.range (n2 - 1)).foldl (fun r i => addAt r (i + 1) (-(at' ao2 i))) ae2
  addAt res 0 (at' ao2 (n2 - 1))

/-- `lift`, ntrugen.py 79-88. -/
def lift (a : List R) : List R :=
  (List.range a.length).foldl (fun r i => r.set (2 * i) (at' a i)) (List.replicate (2 * a.length) 0)

/-- The loop of `bitsize`, ntrugen.py 99-101; `fuel ≥ val` is enough since `val` shrinks. -/
def bitsizeLoop : Nat → Nat → Nat → Nat
  | 0, _, res => res
  | fuel + 1, val, res => if val = 0 then res else bitsizeLoop fuel (val >>> 8) (res + 8)

/-- `bitsize`, ntrugen.py 91-102. -/
def bitsize (a : Int) : Nat := bitsizeLoop a.natAbs a.natAbs 0

/-- `min(l)` of a Python list (0 on the empty list, which Python rejects). -/
def pyMin (l : List Int) : Int := l.tail.foldl min (l.headD 0)
/-- `max(l)` of a Python list. -/
def pyMax (l : List Int) : Int := l.tail.foldl max (l.headD 0)

/-- `max(53, bitsize(min(F)), bitsize(max(F)), bitsize(min(G)), bitsize(max(G)))`, ntrugen.py 114-115 and 125-126. -/
def sizeOf2 (F G : List Int) : Nat :=
  max (max (max (max 53 (bitsize (pyMin F))) (bitsize (pyMax F))) (bitsize (pyMin G))) (bitsize (pyMax G))

/-- The floating-point part of `reduce` (ntrugen.py 117-120, 130-141): from `f, g, F, G` it produces the rounded quotient `k`,
or raises (overflow, division by zero, NaN).  Left completely arbitrary. -/
abbrev KOracle := List Int → List Int → List Int → List Int → Except Err (Nat → Int)

/-- The loop of `reduce`, ntrugen.py 122-154.  `none` means that `fuel` iterations did not finish. -/
def reduceLoop (K : KOracle) (f g : List Int) (size : Nat) : Nat → List Int → List Int → Except Err (Option (List Int × List Int))
  | 0, _, _ => .ok none
  | fuel + 1, F, G =>
    let Size := sizeOf2 F G
    if Size < size then .ok (some (F, G))
    else do
      let kf ← K f g F G
      let k := (List.range f.length).map kf
      if k.all (· == 0) then return some (F, G)
      let fk := karamul f k
      let gk := karamul g k
      let F' := (List.range f.length).foldl (fun F i => addAt F i (-(at' fk i * 2 ^ (Size - size)))) F
      let G' := (List.range f.length).foldl (fun G i => addAt G i (-(at' gk i * 2 ^ (Size - size)))) G
      reduceLoop K f g size fuel F' G'

/-- `reduce`, ntrugen.py 105-155. -/
def reduce (K : KOracle) (fuel : Nat) (f g F G : List Int) : Except Err (Option (List Int × List Int)) :=
  reduceLoop K f g (sizeOf2 f g) fuel F G

/-- The loop of `xgcd`, ntrugen.py 164-167: Python `//` and `%` are floor division and its remainder. -/
def xgcdLoop : Nat → Int → Int → Int → Int → Int → Int → Int × Int × Int
  | 0, b, _, x0, _, y0, _ => (b, x0, y0)
  | fuel + 1, b, n, x0, x1, y0, y1 =>
    if n = 0 then (b, x0, y0)
    else xgcdLoop fuel n (b.fmod n) x1 (x0 - b.fdiv n * x1) y1 (y0 - b.fdiv n * y1)

/-- `xgcd`, ntrugen.py 158-168.  `|n|` strictly decreases, so `|n| + 1` iterations are enough (proved in `xgcd_fuel`). -/
def xgcd (b n : Int) : Int × Int × Int := xgcdLoop (n.natAbs + 1) b n 1 0 0 1

/-- `ntru_solve`, ntrugen.py 171-192; the first argument bounds the recursion depth (the length halves at each call). -/
def ntruSolveAux (K : KOracle) (rf : Nat) : Nat → List Int → List Int → Except Err (Option (List Int × List Int))
  | 0, _, _ => .error .runtimeError
  | fuel + 1, f, g =>
    if f.length = 1 then
      let (d, u, v) := xgcd (at' f 0) (at' g 0)
      if d ≠ 1 then .error .valueError else .ok (some ([-12289 * v], [12289 * u]))
    else do
      let fp := fieldNorm f
      let gp := fieldNorm g
      match ← ntruSolveAux K rf fuel fp gp with
      | none => return none
      | some (Fp, Gp) =>
        let F := karamul (lift Fp) (galoisConjugate g)
        let G := karamul (lift Gp) (galoisConjugate f)
        reduce K rf f g F G

/-- `ntru_solve`, ntrugen.py 171-192.  `rf` bounds the number of Babai iterations per level; result `none` means the bound was reached. -/
def ntruSolve (K : KOracle) (rf : Nat) (f g : List Int) : Except Err (Option (List Int × List Int)) :=
  ntruSolveAux K rf f.length f g

end Verif.Ring
