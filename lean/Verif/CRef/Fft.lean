import Verif.CRef.Fpr
import Verif.CRef.FftTables

/-! # FFT over `fpr`: `falcon/nistfalcon/src/fft.c`

Arrays of `fpr` are lists of 64-bit words; a function that writes into an array returns the new array.  A pair of words is a complex number, real part first.  Macros whose operands may overlap read all
their operands before writing, so they are functions on pairs. -/

namespace Verif.CRef.Fft

open Verif.CRef.Fpr

/-- A complex number: real and imaginary part. -/
abbrev C := W × W

/-- `FPC_ADD`, fft.c 48-54. -/
def cAdd (a b : C) : C := (add a.1 b.1, add a.2 b.2)

/-- `FPC_SUB`, fft.c 59-65. -/
def cSub (a b : C) : C := (sub a.1 b.1, sub a.2 b.2)

/-- `FPC_MUL`, fft.c 70-86. -/
def cMul (a b : C) : C := (sub (mul a.1 b.1) (mul a.2 b.2), add (mul a.1 b.2) (mul a.2 b.1))

/-- `FPC_DIV`, fft.c 122-142. -/
def cDiv (a b : C) : C :=
  let m := inv (add (sqr b.1) (sqr b.2))
  cMul a (mul b.1 m, mul (neg b.2) m)

/-- `fpr_gm_tab[2 k]` and `fpr_gm_tab[2 k + 1]`. -/
def gm (k : Nat) : C := (BitVec.ofNat 64 gmTab[2 * k]!, BitVec.ofNat 64 gmTab[2 * k + 1]!)

/-- The same with the imaginary part negated (`fpr_neg`), fft.c 313-314. -/
def gmConj (k : Nat) : C := ((gm k).1, neg (gm k).2)

/-- The complex number in the slots `u` and `u + hn`. -/
def slot (f : List W) (hn u : Nat) : C := (f[u]!, f[u + hn]!)

/-- Write a complex number into the slots `u` and `u + hn`. -/
def put (f : List W) (hn u : Nat) (z : C) : List W := (f.set u z.1).set (u + hn) z.2

/-- One butterfly, fft.c 235-243. -/
def fftButterfly (hn ht : Nat) (s : C) (f : List W) (j : Nat) : List W :=
  let x := slot f hn j
  let y := cMul (slot f hn (j + ht)) s
  put (put f hn j (cAdd x y)) hn (j + ht) (cSub x y)

/-- The loops over `i1` and `j`, fft.c 224-245 (`j1 = i1 * t`). -/
def fftStage (hn t m : Nat) (f : List W) : List W :=
  (List.range (m / 2)).foldl (fun f i1 => (List.range (t / 2)).foldl (fun f j => fftButterfly hn (t / 2) (gm (m + i1)) f (i1 * t + j)) f) f

/-- The loop over `u`, fft.c 219-247: `fuel` rounds are left. -/
def fftLoop (hn : Nat) : Nat → Nat → Nat → List W → List W
  | 0, _, _, f => f
  | fuel + 1, t, m, f => fftLoop hn fuel (t / 2) (2 * m) (fftStage hn t m f)

/-- `FFT`, fft.c 170-248. -/
def fft (f : List W) (logn : Nat) : List W := fftLoop (2 ^ logn / 2) (logn - 1) (2 ^ logn / 2) 2 f

/-- One butterfly, fft.c 318-326. -/
def ifftButterfly (hn t : Nat) (s : C) (f : List W) (j : Nat) : List W :=
  let x := slot f hn j
  let y := slot f hn (j + t)
  put (put f hn j (cAdd x y)) hn (j + t) (cMul (cSub x y) s)

/-- The loops over `i1` and `j`, fft.c 307-328 (`j1 = i1 * dt`; `j1 < hn` for `i1 < hn / dt`). -/
def ifftStage (hn t m : Nat) (f : List W) : List W :=
  (List.range (hn / (2 * t))).foldl (fun f i1 => (List.range t).foldl (fun f j => ifftButterfly hn t (gmConj (m / 2 + i1)) f (i1 * (2 * t) + j)) f) f

/-- The loop over `u`, fft.c 302-331. -/
def ifftLoop (hn : Nat) : Nat → Nat → Nat → List W → List W
  | 0, _, _, f => f
  | fuel + 1, t, m, f => ifftLoop hn fuel (2 * t) (m / 2) (ifftStage hn t m f)

/-- `iFFT`, fft.c 251-345. -/
def ifft (f : List W) (logn : Nat) : List W :=
  let f := ifftLoop (2 ^ logn / 2) (logn - 1) 1 (2 ^ logn) f
  if logn = 0 then f else (List.range (2 ^ logn)).map fun u => mul f[u]! (BitVec.ofNat 64 p2Tab[logn]!)

/-! ## Operations in place, fft.c 348-604 -/

/-- `poly_add`, fft.c 348-358. -/
def polyAdd (a b : List W) (logn : Nat) : List W := (List.range (2 ^ logn)).map fun u => add a[u]! b[u]!

/-- `poly_sub`, fft.c 361-371. -/
def polySub (a b : List W) (logn : Nat) : List W := (List.range (2 ^ logn)).map fun u => sub a[u]! b[u]!

/-- `poly_neg`, fft.c 374-383. -/
def polyNeg (a : List W) (logn : Nat) : List W := (List.range (2 ^ logn)).map fun u => neg a[u]!

/-- `poly_mulconst`, fft.c 460-469. -/
def polyMulconst (a : List W) (x : W) (logn : Nat) : List W := (List.range (2 ^ logn)).map fun u => mul a[u]! x

/-- An array from the values of its `n / 2` complex slots. -/
def ofSlots (logn : Nat) (z : Nat → C) : List W := (List.range (2 ^ logn)).map fun u => if u < 2 ^ logn / 2 then (z u).1 else (z (u - 2 ^ logn / 2)).2

/-- `poly_adj_fft`, fft.c 386-395. -/
def polyAdjFft (a : List W) (logn : Nat) : List W := (List.range (2 ^ logn)).map fun u => if u < 2 ^ logn / 2 then a[u]! else neg a[u]!

/-- `poly_mul_fft`, fft.c 398-415. -/
def polyMulFft (a b : List W) (logn : Nat) : List W := ofSlots logn fun u => cMul (slot a (2 ^ logn / 2) u) (slot b (2 ^ logn / 2) u)

/-- `poly_muladj_fft`, fft.c 418-435. -/
def polyMuladjFft (a b : List W) (logn : Nat) : List W :=
  ofSlots logn fun u => cMul (slot a (2 ^ logn / 2) u) ((slot b (2 ^ logn / 2) u).1, neg (slot b (2 ^ logn / 2) u).2)

/-- `poly_mulselfadj_fft`, fft.c 438-457. -/
def polyMulselfadjFft (a : List W) (logn : Nat) : List W :=
  ofSlots logn fun u => (add (sqr (slot a (2 ^ logn / 2) u).1) (sqr (slot a (2 ^ logn / 2) u).2), 0)

/-- `poly_LDL_fft`, fft.c 579-604: the new `g01` (that is `l10`) and the new `g11` (that is `d11`). -/
def polyLdlFft (g00 g01 g11 : List W) (logn : Nat) : List W × List W :=
  let hn := 2 ^ logn / 2
  let mu := fun u => cDiv (slot g01 hn u) (slot g00 hn u)
  (ofSlots logn fun u => ((mu u).1, neg (mu u).2),
   ofSlots logn fun u => cSub (slot g11 hn u) (cMul (mu u) ((slot g01 hn u).1, neg (slot g01 hn u).2)))

/-- `poly_split_fft`, fft.c 636-682, for `logn ≥ 1`: the two halves.  For `logn = 1` the loop is empty and the two words are copied; for larger degrees the loop overwrites both copies (the one in
`f1[0]` too), since `qn ≥ 1`. -/
def polySplitFft (f : List W) (logn : Nat) : List W × List W :=
  let hn := 2 ^ logn / 2
  if logn = 1 then ([f[0]!], [f[1]!]) else
    let d := fun (z : C) => (half z.1, half z.2)
    (ofSlots (logn - 1) fun u => d (cAdd (slot f hn (2 * u)) (slot f hn (2 * u + 1))),
     ofSlots (logn - 1) fun u => d (cMul (cSub (slot f hn (2 * u)) (slot f hn (2 * u + 1))) (gmConj (u + hn))))

/-- `poly_merge_fft`, fft.c 685-718, for `logn ≥ 1`: as above. -/
def polyMergeFft (f0 f1 : List W) (logn : Nat) : List W :=
  let hn := 2 ^ logn / 2
  let qn := hn / 2
  if logn = 1 then [f0[0]!, f1[0]!] else
    ofSlots logn fun u =>
      let a := slot f0 qn (u / 2)
      let b := cMul (slot f1 qn (u / 2)) (gm (u / 2 + hn))
      if u % 2 = 0 then cAdd a b else cSub a b

end Verif.CRef.Fft
