import Verif.CRef.SignDyn

/-! # Signing with an expanded key: `falcon/nistfalcon/src/sign.c` 41-186, 204-326, 434-772, 1200-1242

The expanded key is one array of `fpr`, as in C: the four polynomials of the basis, then the sampling tree.  A pointer into it is a suffix of the list. -/

namespace Verif.CRef.SignTree

open Verif.CRef Verif.CRef.Fpr Verif.CRef.Fft Verif.CRef.SignSampler Verif.CRef.SignDyn

/-- `fpr_invsqrt2`, fpr.h 263. -/
def invsqrt2 : W := 4604544271217802189

/-- `fpr_invsqrt8`, fpr.h 264. -/
def invsqrt8 : W := 4600040671590431693

/-- `ffLDL_treesize`, sign.c 53-66. -/
def treesize (logn : Nat) : Nat := (logn + 1) * 2 ^ logn

/-- `poly_LDLmv_fft`, fft.c 607-633: `d11` and `l10`. -/
def polyLdlmvFft (g00 g01 g11 : List W) (logn : Nat) : List W × List W :=
  let hn := 2 ^ logn / 2
  let mu := fun u => cDiv (slot g01 hn u) (slot g00 hn u)
  (ofSlots logn fun u => cSub (slot g11 hn u) (cMul (mu u) ((slot g01 hn u).1, neg (slot g01 hn u).2)),
   ofSlots logn fun u => ((mu u).1, neg (mu u).2))

/-- `ffLDL_fft_inner`, sign.c 75-115: the tree written. -/
def ffLdlInner : Nat → List W → List W → List W
  | 0, g0, _ => [g0[0]!]
  | k + 1, g0, g1 =>
    let d := polyLdlmvFft g0 g1 g0 (k + 1)
    let s0 := polySplitFft g0 (k + 1)
    let s1 := polySplitFft d.1 (k + 1)
    d.2 ++ ffLdlInner k s0.1 s0.2 ++ ffLdlInner k s1.1 s1.2

/-- `ffLDL_fft`, sign.c 128-157: the tree written. -/
def ffLdl : Nat → List W → List W → List W → List W
  | 0, g00, _, _ => [g00[0]!]
  | k + 1, g00, g01, g11 =>
    let d := polyLdlmvFft g00 g01 g11 (k + 1)
    let s0 := polySplitFft g00 (k + 1)
    let s1 := polySplitFft d.1 (k + 1)
    d.2 ++ ffLdlInner k s0.1 s0.2 ++ ffLdlInner k s1.1 s1.2

/-- `ffLDL_binary_normalize`, sign.c 163-186: the new contents of the tree at the pointer `tree`. -/
def ffLdlNormalize (orig : Nat) : Nat → List W → List W
  | 0, tree => [mul (sqrt tree[0]!) invSigma[orig]!]
  | k + 1, tree =>
    tree.take (2 ^ (k + 1)) ++ ffLdlNormalize orig k (tree.drop (2 ^ (k + 1))) ++ ffLdlNormalize orig k (tree.drop (2 ^ (k + 1) + treesize k))

/-- The Gram matrix of `expand_privkey`, sign.c 288-315 (the two terms of `g01` are added in the other order than in `do_sign_dyn`). -/
def gramTree (b : List W × List W × List W × List W) (logn : Nat) : List W × List W × List W :=
  (polyAdd (polyMulselfadjFft b.1 logn) (polyMulselfadjFft b.2.1 logn) logn,
   polyAdd (polyMuladjFft b.1 b.2.2.1 logn) (polyMuladjFft b.2.1 b.2.2.2 logn) logn,
   polyAdd (polyMulselfadjFft b.2.2.1 logn) (polyMulselfadjFft b.2.2.2 logn) logn)

/-- `expand_privkey`, sign.c 242-326, with the offsets of sign.c 210-239. -/
def expandPrivkey (f g F G : List Int) (logn : Nat) : List W :=
  let b := basis f g F G logn
  let gr := gramTree b logn
  b.1 ++ b.2.1 ++ b.2.2.1 ++ b.2.2.2 ++ ffLdlNormalize logn logn (ffLdl logn gr.1 gr.2.1 gr.2.2)

/-- Two calls of the sampler with one deviation, as in sign.c 472-476: the two answers as `fpr`. -/
def draw2 {σ : Type} (samp : Samp σ) (x : C) (sigma : W) (st : σ) : Option (C × σ) :=
  match samp st x.1 sigma with
  | none => none
  | some a => match samp a.2 x.2 sigma with
    | none => none
    | some b => some ((ofInt a.1, ofInt b.1), b.2)

/-- The part of sign.c 463-489 (and 527-569) that is one call for `logn = 1`: the answers for the second and for the first polynomial.  `x1` and `x0` are the targets, `tree` the tree at this node. -/
def sample1 {σ : Type} (samp : Samp σ) (tree : List W) (x0 x1 : C) (st : σ) : Option (C × C × σ) :=
  match draw2 samp x1 tree[3]! st with
  | none => none
  | some a =>
    match draw2 samp (cAdd (cMul (cSub x1 a.1) (tree[0]!, tree[1]!)) x0) tree[2]! a.2 with
    | none => none
    | some b => some (b.1, a.1, b.2)

/-- The split of a polynomial with four coefficients, sign.c 456-468. -/
def split4 (a b : C) : C × C :=
  let c := cAdd a b
  let d := cSub a b
  ((half c.1, half c.2), (mul (add d.1 d.2) invsqrt8, mul (sub d.2 d.1) invsqrt8))

/-- The merge into a polynomial with four coefficients, sign.c 491-501. -/
def merge4 (a b : C) : List W :=
  let c : C := (mul (sub b.1 b.2) invsqrt2, mul (add b.1 b.2) invsqrt2)
  let x := cAdd a c
  let y := cSub a c
  [x.1, y.1, x.2, y.2]

/-- `ffSampling_fft`, sign.c 434-651: `z0`, `z1` and the state of the sampler.  The case `logn = 0` is commented out in C and not reached from `logn ≥ 1`. -/
def ffSamplingTree {σ : Type} (samp : Samp σ) : Nat → List W → List W → List W → σ → Option (List W × List W × σ)
  | 0, _, _, _, _ => none
  | 1, tree, t0, t1, st =>
    match sample1 samp tree (t0[0]!, t0[1]!) (t1[0]!, t1[1]!) st with
    | none => none
    | some a => some ([a.1.1, a.1.2], [a.2.1.1, a.2.1.2], a.2.2)
  | 2, tree, t0, t1, st =>
    let w := split4 (slot t1 2 0) (slot t1 2 1)
    match sample1 samp (tree.drop 8) w.1 w.2 st with
    | none => none
    | some a =>
      let z1 := merge4 a.1 a.2.1
      let tb := fun u => cAdd (cMul (cSub (slot t1 2 u) (slot z1 2 u)) (slot tree 2 u)) (slot t0 2 u)
      let w := split4 (tb 0) (tb 1)
      match sample1 samp (tree.drop 4) w.1 w.2 a.2.2 with
      | none => none
      | some b => some (merge4 b.1 b.2.1, z1, b.2.2)
  | k + 3, tree, t0, t1, st =>
    let n := 2 ^ (k + 3)
    let x1 := polySplitFft t1 (k + 3)
    match ffSamplingTree samp (k + 2) (tree.drop (n + treesize (k + 2))) x1.1 x1.2 st with
    | none => none
    | some a =>
      let z1 := polyMergeFft a.1 a.2.1 (k + 3)
      let x0 := polySplitFft (polyAdd (polyMulFft (Fft.polySub t1 z1 (k + 3)) tree (k + 3)) t0 (k + 3)) (k + 3)
      match ffSamplingTree samp (k + 2) (tree.drop n) x0.1 x0.2 a.2.2 with
      | none => none
      | some b => some (polyMergeFft b.1 b.2.1 (k + 3), z1, b.2.2)

/-- The polynomial at offset `i * n` of the expanded key, sign.c 210-232. -/
def part (ek : List W) (i logn : Nat) : List W := (ek.drop (i * 2 ^ logn)).take (2 ^ logn)

/-- `do_sign_tree`, sign.c 664-772: `s2` if the vector is short enough, and the state of the sampler. -/
def doSignTree {σ : Type} (samp : Samp σ) (ek : List W) (hm : List Nat) (logn : Nat) (st : σ) : Option (Option (List Int) × σ) :=
  let b := (part ek 0 logn, part ek 1 logn, part ek 2 logn, part ek 3 logn)
  let t := target b hm logn
  match ffSamplingTree samp logn (ek.drop (4 * 2 ^ logn)) t.1 t.2 st with
  | none => none
  | some z =>
    let p := point b z.1 z.2.1 logn
    let s2 := (List.range (2 ^ logn)).map fun u => s2Of p.2[u]!
    some (if isShortHalf logn (sqnOf hm p.1 logn) s2 then some s2 else none, z.2.2)

/-- `sign_tree`, sign.c 1200-1242: the signature and the SHAKE context, parameters as for `signDyn`. -/
def signTree (sfuel : Nat) (buf : Nat → Bytes) (ek : List W) (hm : List Nat) (logn : Nat) : Nat → Nat → Shake.Ctx → Option (List Int × Shake.Ctx)
  | 0, _, _ => none
  | fuel + 1, i, c =>
    let p := Prng.init (buf i) c
    match doSignTree (fun p mu isigma => sampler sigmaMin[logn]! mu isigma sfuel p) ek hm logn p.1 with
    | none => none
    | some r => match r.1 with
      | some s => some (s, p.2)
      | none => signTree sfuel buf ek hm logn fuel (i + 1) p.2

end Verif.CRef.SignTree
