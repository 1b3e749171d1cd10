import Verif.CRef.Reduce

/-! # The intermediate levels of the NTRU solver: `falcon/nistfalcon/src/keygen.c` 2772-2995; the reduction follows in `Reduce.lean`

`F` and `G` are built from those of the next level; then `reduceFG` reduces them. -/

namespace Verif.CRef.Kg

/-- `f` with the residues back from the transform and rebuilt, keygen.c `modp_iNTT2_ext(ft + u, ..)` and `zint_rebuild_CRT(ft, ..)` in the second loop (2887-2890, 2905-2918). -/
def sourceRows (ft : List (List Nat)) (logn slen : Nat) : List (List Nat) := zintRebuildCRT (fgSource ft logn slen true) slen primes true

/-- The transform `fx` of `f` modulo prime number `u`: a column of `ft` below `slen`, afterwards from the rebuilt integers; keygen.c 2905-2935. -/
def sourceNtt (ft : List (List Nat)) (logn slen u : Nat) : List Nat :=
  if u < slen then column ft u else highNtt (sourceRows ft logn slen) logn slen u

/-- One round of the second loop of `solve_NTRU_intermediate` for one of the two polynomials: from `gx` and the rows `Fd` of the next level the residues of `F` modulo prime number `u`, keygen.c 2853-2872 and 2937-2988.
The C code writes the entries `2 v` and `2 v + 1` together. -/
def liftColumn (gx : List Nat) (Fd : List (List Nat)) (logn dlen u : Nat) : List Nat :=
  let p := (primes[u]!).1
  let p0i := modpNinv31 p
  let r2 := modpR2 p p0i
  let Fp := ntt2 (Fd.map fun x => zintModSmallSigned x p p0i r2 (modpRx dlen p p0i r2)) (tabs logn u).1 (logn - 1) p p0i
  intt2 ((List.range (2 ^ logn)).map fun w => modpMontymul gx[if w % 2 = 0 then w + 1 else w - 1]! (modpMontymul Fp[w / 2]! r2 p p0i) p p0i) (tabs logn u).2 logn p p0i

/-- The unreduced `F` (from `g` and `Fd`) or `G` (from `f` and `Gd`), keygen.c 2873-2995. -/
def liftRows (gt Fd : List (List Nat)) (logn slen dlen llen : Nat) : List (List Nat) :=
  zintRebuildCRT ((List.range (2 ^ logn)).map fun w => (List.range llen).map fun u => (liftColumn (sourceNtt gt logn slen u) Fd logn dlen u)[w]!) llen primes true

/-- `solve_NTRU_intermediate`, keygen.c 2768-3314, with the floating-point multipliers as a parameter: `Fd`, `Gd` are the results of the next level. -/
def solveIntermediate (lognTop depth : Nat) (f g : List Int) (Fd Gd : List (List Nat)) (mult : List (List Nat) → List (List Nat) → ReduceSt → Nat → Option (List Int)) : Option (List (List Nat) × List (List Nat)) :=
  let logn := lognTop - depth
  let slen := maxBlSmall[depth]!
  let dlen := maxBlSmall[depth + 1]!
  let llen := maxBlLarge[depth]!
  let ft := makeFg f lognTop depth true
  let gt := makeFg g lognTop depth true
  let fs := sourceRows ft logn slen
  let gs := sourceRows gt logn slen
  reduceFG depth logn fs gs (liftRows gt Fd logn slen dlen llen) (liftRows ft Gd logn slen dlen llen) (mult fs gs)

end Verif.CRef.Kg
