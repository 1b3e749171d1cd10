import Verif.CRef.Zint
import Verif.CRef.KgTables

/-! # The deepest level of the NTRU solver: `falcon/nistfalcon/src/keygen.c` 2394-2396, 2516-2761

A polynomial in RNS is a list with one row per coefficient; the row lists the residues modulo the first primes of the table.  The C code treats `f` and `g` one after the other in the same way and keeps them
in one array; the model treats one polynomial.  The tables of `modp_mkgm2` and the work areas are overwritten before they are read: their old contents are taken as zeros. -/

namespace Verif.CRef.Kg

/-- `MAX_BL_SMALL`, keygen.c 2394-2396. -/
def maxBlSmall : List Nat := [1, 1, 2, 2, 4, 7, 14, 27, 53, 106, 209]

/-- The residues modulo prime number `u`, as copied to `t1`, keygen.c 2556-2558. -/
def column (x : List (List Nat)) (u : Nat) : List Nat := x.map fun o => o[u]!

/-- `modp_mkgm2` for prime number `u`, keygen.c 2554. -/
def tabs (logn u : Nat) : List Nat × List Nat :=
  mkgm2 (List.replicate (2 ^ logn) 0) (List.replicate (2 ^ logn) 0) logn (primes[u]!).2.1 (primes[u]!).1 (modpNinv31 (primes[u]!).1)

/-- The products of neighbours, keygen.c 2562-2569. -/
def halfProd (t : List Nat) (hn p p0i : Nat) : List Nat :=
  (List.range hn).map fun v => modpMontymul (modpMontymul t[2 * v + 0]! t[2 * v + 1]! p p0i) (modpR2 p p0i) p p0i

/-- The new residues modulo prime number `u` from the transform `t`: keygen.c 2562-2569 and 2592-2595. -/
def fgColumn (logn u : Nat) (outNtt : Bool) (t : List Nat) : List Nat :=
  let p := (primes[u]!).1
  let d := halfProd t (2 ^ logn / 2) p (modpNinv31 p)
  if outNtt then d else intt2 d (tabs logn u).2 (logn - 1) p (modpNinv31 p)

/-- The transform of the source modulo prime number `u` in the first loop, keygen.c 2556-2561. -/
def lowNtt (x : List (List Nat)) (logn u : Nat) (inNtt : Bool) : List Nat :=
  let p := (primes[u]!).1
  if inNtt then column x u else ntt2 (column x u) (tabs logn u).1 logn p (modpNinv31 p)

/-- The source after the first loop, without NTT, keygen.c 2570-2572. -/
def fgSource (x : List (List Nat)) (logn slen : Nat) (inNtt : Bool) : List (List Nat) :=
  if inNtt then
    (List.range (2 ^ logn)).map fun v => (List.range slen).map fun u => (intt2 (column x u) (tabs logn u).2 logn (primes[u]!).1 (modpNinv31 (primes[u]!).1))[v]!
  else x

/-- The transform of the source modulo prime number `u` in the second loop, keygen.c 2613-2621. -/
def highNtt (xs : List (List Nat)) (logn slen u : Nat) : List Nat :=
  let p := (primes[u]!).1
  let p0i := modpNinv31 p
  let r2 := modpR2 p p0i
  ntt2 (xs.map fun o => zintModSmallSigned o p p0i r2 (modpRx slen p p0i r2)) (tabs logn u).1 logn p p0i

/-- `make_fg_step`, keygen.c 2515-2648, for one polynomial. -/
def makeFgStep (x : List (List Nat)) (logn depth : Nat) (inNtt outNtt : Bool) : List (List Nat) :=
  let slen := maxBlSmall[depth]!
  let tlen := maxBlSmall[depth + 1]!
  let xs := zintRebuildCRT (fgSource x logn slen inNtt) slen primes true
  (List.range (2 ^ logn / 2)).map fun v => (List.range tlen).map fun u =>
    (fgColumn logn u outNtt (if u < slen then lowNtt x logn u inNtt else highNtt xs logn slen u))[v]!

/-- `make_fg`, keygen.c 2661-2698, for one polynomial. -/
def makeFg (f : List Int) (logn depth : Nat) (outNtt : Bool) : List (List Nat) :=
  let p := (primes[0]!).1
  let ft := f.map fun x => [modpSet x p]
  if depth = 0 ∧ outNtt = true then (ntt2 (column ft 0) (tabs logn 0).1 logn p (modpNinv31 p)).map fun w => [w]
  else (List.range depth).foldl (fun x d => makeFgStep x (logn - d) d (d != 0) (decide (d + 1 < depth) || outNtt)) ft

/-- `solve_NTRU_deepest`, keygen.c 2707-2761: `F` and `G`, or `none` on failure. -/
def solveDeepest (logn : Nat) (f g : List Int) : Option (List Nat × List Nat) :=
  let len := maxBlSmall[logn]!
  let fp := (makeFg f logn logn false)[0]!
  let gp := (makeFg g logn logn false)[0]!
  let r := zintRebuildCRT [fp, gp] len primes false
  let b := zintBezout r[0]! r[1]!
  if b.2.2 = 0 then none
  else
    let F := zintMulSmall 12289 b.2.1 0
    let G := zintMulSmall 12289 b.1 0
    if F.2 ≠ 0 ∨ G.2 ≠ 0 then none else some (F.1, G.1)

end Verif.CRef.Kg
