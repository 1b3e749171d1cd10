import Verif.CRef.SignTree
import Verif.CRef.SignDynSpec
import Verif.CRef.TreeSpec

/-! # Specification for the tree signer -/

namespace Verif.CRef.SignTree

open Verif Verif.CRef Verif.CRef.Fpr Verif.CRef.Fft Verif.CRef.SignSampler Verif.CRef.SignDyn

/-- The recursion of `do_sign_dyn` (`SignDyn.ffSampling`), with two other routines for splitting a target and for merging the answers.  No tree is stored: the decomposition is computed on the way. -/
def ffSamplingBy (split : List W → ℕ → List W × List W) (merge : List W → List W → ℕ → List W) {σ : Type} (samp : Samp σ) (orig : ℕ) : ℕ → List W → List W → List W → List W → List W → σ → Option (List W × List W × σ)
  | 0, t0, t1, g00, _, _, st =>
    match samp st t0[0]! (mul (sqrt g00[0]!) invSigma[orig]!) with
    | none => none
    | some a => match samp a.2 t1[0]! (mul (sqrt g00[0]!) invSigma[orig]!) with
      | none => none
      | some b => some ([ofInt a.1], [ofInt b.1], b.2)
  | k + 1, t0, t1, g00, g01, g11, st =>
    let d := polyLdlFft g00 g01 g11 (k + 1)
    let s0 := polySplitFft g00 (k + 1)
    let s1 := polySplitFft d.2 (k + 1)
    let x1 := split t1 (k + 1)
    match ffSamplingBy split merge samp orig k x1.1 x1.2 s1.1 s1.2 s1.1 st with
    | none => none
    | some a =>
      let z1 := merge a.1 a.2.1 (k + 1)
      let x0 := split (polyAdd t0 (polyMulFft d.1 (Fft.polySub t1 z1 (k + 1)) (k + 1)) (k + 1)) (k + 1)
      match ffSamplingBy split merge samp orig k x0.1 x0.2 s0.1 s0.2 s0.1 a.2.2 with
      | none => none
      | some b => some (merge b.1 b.2.1 (k + 1), z1, b.2.2)

/-- Splitting as in the unrolled code: `fpr_invsqrt8` for polynomials with four coefficients. -/
def splitTree (f : List W) (logn : ℕ) : List W × List W :=
  if logn = 2 then let w := split4 (slot f 2 0) (slot f 2 1); ([w.1.1, w.1.2], [w.2.1, w.2.2]) else polySplitFft f logn

/-- Merging as in the unrolled code: `fpr_invsqrt2` for polynomials with four coefficients. -/
def mergeTree (f0 f1 : List W) (logn : ℕ) : List W :=
  if logn = 2 then merge4 (f0[0]!, f0[1]!) (f1[0]!, f1[1]!) else polyMergeFft f0 f1 logn

/-- `do_sign_dyn` (`SignDyn.doSignDyn`) with the recursion `ffSamplingBy`. -/
def doSignBy (split : List W → ℕ → List W × List W) (merge : List W → List W → ℕ → List W) {σ : Type} (samp : Samp σ) (f g F G : List ℤ) (hm : List ℕ) (logn : ℕ) (st : σ) : Option (Option (List ℤ) × σ) :=
  let b := basis f g F G logn
  let gr := gram b logn
  let t := target b hm logn
  match ffSamplingBy split merge samp logn logn t.1 t.2 gr.1 gr.2.1 gr.2.2 st with
  | none => none
  | some z =>
    let p := point b z.1 z.2.1 logn
    let s2 := (List.range (2 ^ logn)).map fun u => s2Of p.2[u]!
    some (if isShortHalf logn (sqnOf hm p.1 logn) s2 then some s2 else none, z.2.2)

/-- The attempt with the expanded key that starts in the state `st` stays in range (see `SignDyn.Fits`). -/
def FitsTree {σ : Type} (samp : Samp σ) (f g F G : List ℤ) (c : List ℕ) (logn : ℕ) (st : σ) : Prop :=
  ∀ r st' l, doSignTree (logged samp) (expandPrivkey f g F G logn) c logn (st, []) = some (r, (st', l)) →
    (∀ x ∈ l, |x| ≤ 32768) ∧ ∀ s1 s2, IsVector (2 ^ logn) f g F G c (arrange logn l).1 (arrange logn l).2 s1 s2 → Vec16 (2 ^ logn) s1 ∧ Vec16 (2 ^ logn) s2

end Verif.CRef.SignTree
