import Verif.CRef.Vrfy
import Verif.CRef.KgTables
import Verif.CRef.Shake

/-! # Key generation of the C reference code

Models `falcon/nistfalcon/src/keygen.c`: the arithmetic modulo the small primes (627-1070), the Gaussian source (2217-2338), the final check of `solve_NTRU` (3959-4069), and `keygen` (4119-4273).
Two things are parameters, so that what is proved holds whatever they compute: the solver of the NTRU equation proper (`solve_NTRU_deepest`, `solve_NTRU_intermediate`, `solve_NTRU_binary_depth1`,
`solve_NTRU_binary_depth0`; 2480-3950), of which only the words it leaves in `tmp` are used, and the floating-point test of the orthogonalized norm (4217-4243; `orthTest` in `Orth.lean`).
`uint32_t` and `uint64_t` values are natural numbers with explicit reductions; arrays are lists. -/

namespace Verif.CRef.Kg

/-! ## Arithmetic modulo a small prime, keygen.c 627-833 -/

/-- `uint64_t` subtraction. -/
def sub64 (a b : Nat) : Nat := (a + (18446744073709551616 - b % 18446744073709551616)) % 18446744073709551616

/-- `modp_set`, keygen.c 627-639. -/
def modpSet (x : Int) (p : Nat) : Nat := let w := u32 x; add32 w (p &&& neg32 (w >>> 31))

/-- `modp_norm`, keygen.c 644-648. -/
def modpNorm (x p : Nat) : Int := i32 (sub32 x (p &&& sub32 (sub32 x (add32 p 1 >>> 1) >>> 31) 1))

/-- `modp_ninv31`, keygen.c 654-665. -/
def modpNinv31 (p : Nat) : Nat :=
  let y := sub32 2 p
  let y := mul32 y (sub32 2 (mul32 p y))
  let y := mul32 y (sub32 2 (mul32 p y))
  let y := mul32 y (sub32 2 (mul32 p y))
  let y := mul32 y (sub32 2 (mul32 p y))
  0x7FFFFFFF &&& neg32 y

/-- `modp_R`, keygen.c 670-678. -/
def modpR (p : Nat) : Nat := sub32 2147483648 p

/-- `modp_add`, keygen.c 683-691. -/
def modpAdd (a b p : Nat) : Nat := let d := sub32 (add32 a b) p; add32 d (p &&& neg32 (d >>> 31))

/-- `modp_sub`, keygen.c 696-704. -/
def modpSub (a b p : Nat) : Nat := let d := sub32 a b; add32 d (p &&& neg32 (d >>> 31))

/-- `modp_montymul`, keygen.c 722-733; `z` and `w` are `uint64_t`. -/
def modpMontymul (a b p p0i : Nat) : Nat :=
  let z := a * b % 18446744073709551616
  let w := (z * p0i % 18446744073709551616 &&& 0x7FFFFFFF) * p % 18446744073709551616
  let d := sub32 ((((z + w) % 18446744073709551616) >>> 31) % 4294967296) p
  add32 d (p &&& neg32 (d >>> 31))

/-- `modp_R2`, keygen.c 738-765. -/
def modpR2 (p p0i : Nat) : Nat :=
  let z := modpR p
  let z := modpAdd z z p
  let z := modpMontymul z z p p0i
  let z := modpMontymul z z p p0i
  let z := modpMontymul z z p p0i
  let z := modpMontymul z z p p0i
  let z := modpMontymul z z p p0i
  add32 z (p &&& neg32 (z &&& 1)) >>> 1

/-- The loop of `modp_Rx`, keygen.c 785-790; `fuel` bounds `i`, 32 rounds always suffice. -/
def modpRxLoop (x p p0i : Nat) : Nat → Nat → Nat → Nat → Nat
  | 0, _, _, z => z
  | fuel + 1, i, r, z => if 1 <<< i ≤ x then
      let z := if x &&& 1 <<< i ≠ 0 then modpMontymul z r p p0i else z
      modpRxLoop x p p0i fuel (i + 1) (modpMontymul r r p p0i) z
    else z

/-- `modp_Rx`, keygen.c 772-792. -/
def modpRx (x p p0i r2 : Nat) : Nat := modpRxLoop (sub32 x 1) p p0i 32 0 r2 (modpR p)

/-- One round of `modp_div`, keygen.c 812-818: the exclusive-or selects `z2` if bit `i` of `e` is set. -/
def modpDivStep (b p p0i e : Nat) (z i : Nat) : Nat :=
  let z := modpMontymul z z p p0i
  let z2 := modpMontymul z b p p0i
  z ^^^ ((z ^^^ z2) &&& neg32 ((e >>> i) &&& 1))

/-- `modp_div`, keygen.c 804-833; `i` runs from 30 down to 0. -/
def modpDiv (a b p p0i r : Nat) : Nat :=
  let z := (List.range 31).foldl (fun z j => modpDivStep b p p0i (sub32 p 2) z (30 - j)) r
  let z := modpMontymul z 1 p p0i
  modpMontymul a z p p0i

/-! ## Transforms modulo a small prime, keygen.c 930-1070 -/

/-- `modp_mkgm2`, keygen.c 943-977; `gm` and `igm` are the arrays before the call.  The squarings of 957-959: `10 - logn` rounds. -/
def mkgm2 (gm igm : List Nat) (logn g p p0i : Nat) : List Nat × List Nat :=
  let r2 := modpR2 p p0i
  let g := modpMontymul g r2 p p0i
  let g := (List.range (10 - logn)).foldl (fun g _ => modpMontymul g g p p0i) g
  let ig := modpDiv r2 g p p0i (modpR p)
  let r := (List.range (2 ^ logn)).foldl (fun (st : (List Nat × List Nat) × (Nat × Nat)) u =>
    let v := rev10[u <<< (10 - logn)]!
    ((st.1.1.set v st.2.1, st.1.2.set v st.2.2), (modpMontymul st.2.1 g p p0i, modpMontymul st.2.2 ig p p0i))) ((gm, igm), (modpR p, modpR p))
  r.1

/-- One butterfly, keygen.c 1004-1007. -/
def fwButterfly (p p0i s ht : Nat) (a : List Nat) (j : Nat) : List Nat :=
  let x := a[j]!
  let y := modpMontymul a[j + ht]! s p p0i
  (a.set j (modpAdd x y p)).set (j + ht) (modpSub x y p)

/-- The loop over `v`, keygen.c 1001-1008. -/
def fwInner (p p0i s ht v1 : Nat) (a : List Nat) : List Nat := (List.range ht).foldl (fun a v => fwButterfly p p0i s ht a (v1 + v)) a

/-- The loop over `u`, keygen.c 993-1009. -/
def fwMiddle (p p0i : Nat) (gm : List Nat) (m t : Nat) (a : List Nat) : List Nat :=
  ((List.range m).foldl (fun (st : Nat × List Nat) u => (st.1 + t, fwInner p p0i gm[m + u]! (t / 2) st.1 st.2)) (0, a)).2

/-- The loop over `m`, keygen.c 989-1011. -/
def fwOuter (p p0i : Nat) (gm : List Nat) (n : Nat) : Nat → Nat → Nat → List Nat → List Nat
  | 0, _, _, a => a
  | fuel + 1, t, m, a => if m < n then fwOuter p p0i gm n fuel (t / 2) (2 * m) (fwMiddle p p0i gm m t a) else a

/-- `modp_NTT2`, keygen.c 980-1012 and 1069: consecutive elements, stride 1. -/
def ntt2 (a gm : List Nat) (logn p p0i : Nat) : List Nat := if logn = 0 then a else fwOuter p p0i gm (2 ^ logn) (2 ^ logn) (2 ^ logn) 1 a

/-- One butterfly, keygen.c 1045-1049. -/
def invButterfly (p p0i s t : Nat) (a : List Nat) (j : Nat) : List Nat :=
  let x := a[j]!
  let y := a[j + t]!
  (a.set j (modpAdd x y p)).set (j + t) (modpMontymul (modpSub x y p) s p p0i)

/-- The loop over `v`, keygen.c 1042-1050. -/
def invInner (p p0i s t v1 : Nat) (a : List Nat) : List Nat := (List.range t).foldl (fun a v => invButterfly p p0i s t a (v1 + v)) a

/-- The loop over `u`, keygen.c 1034-1051. -/
def invMiddle (p p0i : Nat) (igm : List Nat) (hm t : Nat) (a : List Nat) : List Nat :=
  ((List.range hm).foldl (fun (st : Nat × List Nat) u => (st.1 + 2 * t, invInner p p0i igm[hm + u]! t st.1 st.2)) (0, a)).2

/-- The loop over `m`, keygen.c 1029-1053. -/
def invOuter (p p0i : Nat) (igm : List Nat) : Nat → Nat → Nat → List Nat → List Nat
  | 0, _, _, a => a
  | fuel + 1, t, m, a => if m > 1 then invOuter p p0i igm fuel (2 * t) (m / 2) (invMiddle p p0i igm (m / 2) t a) else a

/-- `modp_iNTT2`, keygen.c 1017-1063 and 1070. -/
def intt2 (a igm : List Nat) (logn p p0i : Nat) : List Nat :=
  if logn = 0 then a else
    let a := invOuter p p0i igm (2 ^ logn) 1 (2 ^ logn) a
    let ni := (1 <<< (31 - logn)) % 4294967296
    (List.range (2 ^ logn)).map fun k => modpMontymul a[k]! ni p p0i

/-! ## Small values -/

/-- `zint_one_to_plain`, keygen.c 2004-2012: a two's complement word of 31 bits. -/
def oneToPlain (x : Nat) : Int := i32 (x ||| ((x &&& 0x40000000) <<< 1) % 4294967296)

/-- Cast to `int8_t`. -/
def i8 (x : Int) : Int := if x % 256 < 128 then x % 256 else x % 256 - 256

/-- `poly_big_to_small`, keygen.c 2078-2094; `none`: returns 0. -/
def bigToSmall (s : List Nat) (lim : Int) (logn : Nat) : Option (List Int) :=
  (List.range (2 ^ logn)).foldl (fun (d : Option (List Int)) u => match d with
    | none => none
    | some d => let z := oneToPlain s[u]!; if z < -lim ∨ z > lim then none else some (d ++ [i8 z])) (some [])

/-- `poly_small_sqnorm`, keygen.c 2435-2452. -/
def sqnorm (f : List Int) (logn : Nat) : Nat :=
  let r := (List.range (2 ^ logn)).foldl (fun st u => accum st f[u]!) (0, 0)
  r.1 ||| neg32 (r.2 >>> 31)

/-! ## Gaussian source, keygen.c 2217-2338 -/

/-- `get_rng_u64`, keygen.c 2217-2235. -/
def getRngU64 (c : Shake.Ctx) : Nat × Shake.Ctx :=
  let r := Shake.extract c 8
  let t := r.2
  (t[0]! ||| t[1]! <<< 8 ||| t[2]! <<< 16 ||| t[3]! <<< 24 ||| t[4]! <<< 32 ||| t[5]! <<< 40 ||| t[6]! <<< 48 ||| t[7]! <<< 56, r.1)

/-- The scan of the table, keygen.c 2314-2322: state `(v, f)`; `r` is the second word without its top bit. -/
def gaussScan (r : Nat) (st : Nat × Nat) (k : Nat) : Nat × Nat :=
  let t := (sub64 r gauss[k]! >>> 63) % 4294967296 ^^^ 1
  (st.1 ||| (k &&& neg32 (t &&& (st.2 ^^^ 1))), st.2 ||| t)

/-- One value for degree 1024 from two 64-bit words, keygen.c 2295-2333. -/
def gauss1024 (r1 r2 : Nat) : Int :=
  let neg := r1 >>> 63
  let r := r1 &&& 0x7FFFFFFFFFFFFFFF
  let f := (sub64 r gauss[0]! >>> 63) % 4294967296
  let r := r2 &&& 0x7FFFFFFFFFFFFFFF
  let v := ((List.range 26).foldl (fun st k => gaussScan r st (k + 1)) (0, f)).1
  let v := add32 (v ^^^ neg32 neg) neg
  i32 v

/-- `mkgauss`, keygen.c 2265-2338, with a source of 64-bit words `next`: the sum of `2^(10-logn)` values. -/
def mkgauss {σ : Type} (next : σ → Nat × σ) (logn : Nat) (s : σ) : Int × σ :=
  (List.range (2 ^ (10 - logn))).foldl (fun (st : Int × σ) _ =>
    let a := next st.2
    let b := next a.2
    (st.1 + gauss1024 a.1 b.1, b.2)) (0, s)

/-- `poly_small_mkgauss`, keygen.c 4075-4116: `f` holds the coefficients made so far, `mod2` the parity of their sum; `fuel` bounds the number of draws, `none`: not finished. -/
def mkgaussPoly {σ : Type} (next : σ → Nat × σ) (logn : Nat) : Nat → List Int → Nat → σ → Option (List Int × σ)
  | 0, _, _, _ => none
  | fuel + 1, f, mod2, st =>
    let r := mkgauss next logn st
    let s := r.1
    if s < -127 ∨ s > 127 then mkgaussPoly next logn fuel f mod2 r.2
    else if f.length = 2 ^ logn - 1 then
      if mod2 ^^^ (s % 2).toNat = 0 then mkgaussPoly next logn fuel f mod2 r.2 else some (f ++ [s], r.2)
    else mkgaussPoly next logn fuel (f ++ [s]) (mod2 ^^^ (s % 2).toNat) r.2

/-! ## Key generation -/

/-- The solver proper: the words of `F` and of `G` it leaves in `tmp`, or `none` if one of its steps returns 0. -/
abbrev Solver := List Int → List Int → Option (List Nat × List Nat)

/-- The prime of the check, keygen.c 4040-4042: `PRIMES[0]`. -/
def p0 : Nat := primes[0]!.1
/-- `PRIMES[0].g`. -/
def g0 : Nat := primes[0]!.2.1

/-- The check of the NTRU equation, keygen.c 4027-4066; `gm` is the array before the call of `modp_mkgm2`. -/
def checkNTRU (logn : Nat) (mem : List Nat) (f g F G : List Int) : Bool :=
  let p0i := modpNinv31 p0
  let gm := (mkgm2 mem mem logn g0 p0 p0i).1
  let conv := fun (a : List Int) => ntt2 ((List.range (2 ^ logn)).map fun u => modpSet a[u]! p0) gm logn p0 p0i
  let ft := conv f
  let gt := conv g
  let Ft := conv F
  let Gt := conv G
  let r := modpMontymul 12289 1 p0 p0i
  (List.range (2 ^ logn)).all fun u => modpSub (modpMontymul ft[u]! Gt[u]! p0 p0i) (modpMontymul gt[u]! Ft[u]! p0 p0i) p0 == r

/-- `solve_NTRU`, keygen.c 3959-4069; `mem`: the words of the temporary buffer where `gm` is written.  `none`: returns 0.  The steps 3972-4005 are the parameter `solver`. -/
def solveNTRU (solver : Solver) (logn : Nat) (mem : List Nat) (f g : List Int) (lim : Int) : Option (List Int × List Int) :=
  match solver f g with
  | none => none
  | some (fw, gw) =>
    match bigToSmall fw lim logn with
    | none => none
    | some F =>
      match bigToSmall gw lim logn with
      | none => none
      | some G => if checkNTRU logn mem f g F G then some (F, G) else none

/-- `max_fg_bits`, codec.c 677-689. -/
def maxFgBits : List Nat := [0, 8, 8, 8, 8, 8, 7, 7, 6, 6, 5]
/-- `max_FG_bits`, codec.c 691-703. -/
def maxFGBits : List Nat := [0, 8, 8, 8, 8, 8, 8, 8, 8, 8, 8]

/-- `keygen`, keygen.c 4119-4273.  `next`: the source of 64-bit words; `solver`, `mem`: see `solveNTRU`; `orth`: the test of the orthogonalized norm (4217-4243).  `fuel` bounds the rounds of the loop
and the draws of one polynomial; `none`: not finished.  `G` is returned as well; the callers pass a null pointer for it. -/
def keygen {σ : Type} (next : σ → Nat × σ) (solver : Solver) (mem : List Nat) (orth : List Int → List Int → Bool) (logn draws : Nat) :
    Nat → σ → Option (List Int × List Int × List Int × List Int × List Nat)
  | 0, _ => none
  | fuel + 1, st =>
    match mkgaussPoly next logn draws [] 0 st with
    | none => none
    | some (f, st) =>
      match mkgaussPoly next logn draws [] 0 st with
      | none => none
      | some (g, st) =>
        let lim : Int := 2 ^ (maxFgBits[logn]! - 1)
        if (List.range (2 ^ logn)).any (fun u => decide (f[u]! ≥ lim) || decide (f[u]! ≤ -lim) || decide (g[u]! ≥ lim) || decide (g[u]! ≤ -lim)) then
          keygen next solver mem orth logn draws fuel st
        else
          let normf := sqnorm f logn
          let normg := sqnorm g logn
          let norm := add32 normf normg ||| neg32 ((normf ||| normg) >>> 31)
          if norm ≥ 16823 then keygen next solver mem orth logn draws fuel st
          else if !orth f g then keygen next solver mem orth logn draws fuel st
          else match computePublic logn f g with
            | none => keygen next solver mem orth logn draws fuel st
            | some h =>
              match solveNTRU solver logn mem f g (2 ^ (maxFGBits[logn]! - 1) - 1) with
              | none => keygen next solver mem orth logn draws fuel st
              | some (F, G) => some (f, g, F, G, h)

end Verif.CRef.Kg
