import Verif.CRef.Fft
import Verif.CRef.SignSampler
import Verif.CRef.Vrfy

/-! # Signing with a private key: `falcon/nistfalcon/src/sign.c` 192-202, 328-423, 774-983, 1243-1286

`fpr` arrays are lists of 64-bit words.  The C code works in place in one buffer `tmp`; here every polynomial is a value of its own (the memory layout of `tmp`, checked by hand against the comments of
the code, is not modelled).  The sampler is a parameter `samp`, as it is in C (`samplerZ samp, void *samp_ctx`); `none` stands for a sampler that has not ended within the given fuel. -/

namespace Verif.CRef.SignDyn

open Verif.CRef Verif.CRef.Fpr Verif.CRef.Fft Verif.CRef.SignSampler

/-- `fpr_inv_sigma`, fpr.h 230-242. -/
def invSigma : List W :=
  [0, 4574611497772390042, 4574501679055810265, 4574396282908341804, 4574245855758572086, 4574103865040221165, 4573969550563515544, 4573842244705920822, 4573721358406441454, 4573606369665796042,
   4573496814039276259]

/-- `fpr_sigma_min`, fpr.h 243-255. -/
def sigmaMin : List W :=
  [0, 4607707126469777035, 4607777455861499430, 4607846828256951418, 4607949175006100261, 4608049571757433526, 4608148125896792003, 4608244935301382692, 4608340089478362016, 4608433670533905013,
   4608525754002622308]

/-- `fpr_inverse_of_q`, fpr.h 228. -/
def inverseOfQ : W := 4545632735260551042

/-- `samplerZ`, sign.c 328, with the state behind `samp_ctx`: centre, inverse of the deviation. -/
abbrev Samp (σ : Type) := σ → W → W → Option (Int × σ)

/-- `ffSampling_fft_dyntree`, sign.c 336-423: the new `t0`, `t1` and the state of the sampler.  In the recursive calls `g01` is the upper half of the split diagonal element and `g11` a copy of its lower
half (sign.c 374-386). -/
def ffSampling {σ : Type} (samp : Samp σ) (orig : Nat) : Nat → List W → List W → List W → List W → List W → σ → Option (List W × List W × σ)
  | 0, t0, t1, g00, _, _, st =>
    let leaf := mul (sqrt g00[0]!) invSigma[orig]!
    match samp st t0[0]! leaf with
    | none => none
    | some a => match samp a.2 t1[0]! leaf with
      | none => none
      | some b => some ([ofInt a.1], [ofInt b.1], b.2)
  | k + 1, t0, t1, g00, g01, g11, st =>
    let d := polyLdlFft g00 g01 g11 (k + 1)
    let s0 := polySplitFft g00 (k + 1)
    let s1 := polySplitFft d.2 (k + 1)
    let x1 := polySplitFft t1 (k + 1)
    match ffSampling samp orig k x1.1 x1.2 s1.1 s1.2 s1.1 st with
    | none => none
    | some a =>
      let z1 := polyMergeFft a.1 a.2.1 (k + 1)
      let tb0 := polyAdd t0 (polyMulFft d.1 (Fft.polySub t1 z1 (k + 1)) (k + 1)) (k + 1)
      let x0 := polySplitFft tb0 (k + 1)
      match ffSampling samp orig k x0.1 x0.2 s0.1 s0.2 s0.1 a.2.2 with
      | none => none
      | some b => some (polyMergeFft b.1 b.2.1 (k + 1), z1, b.2.2)

/-- `smallints_to_fpr`, sign.c 192-202, and the loop of sign.c 869-875. -/
def toFpr (f : List Int) (logn : Nat) : List W := (List.range (2 ^ logn)).map fun u => ofInt f[u]!

/-- The basis `[[g, -f], [G, -F]]` in FFT representation: `b00, b01, b10, b11`, sign.c 801-814 and 918-927. -/
def basis (f g F G : List Int) (logn : Nat) : List W × List W × List W × List W :=
  (fft (toFpr g logn) logn, polyNeg (fft (toFpr f logn) logn) logn, fft (toFpr G logn) logn, polyNeg (fft (toFpr F logn) logn) logn)

/-- The Gram matrix `g00, g01, g11`, sign.c 833-847. -/
def gram (b : List W × List W × List W × List W) (logn : Nat) : List W × List W × List W :=
  (polyAdd (polyMulselfadjFft b.1 logn) (polyMulselfadjFft b.2.1 logn) logn,
   polyAdd (polyMuladjFft b.2.1 b.2.2.2 logn) (polyMuladjFft b.1 b.2.2.1 logn) logn,
   polyAdd (polyMulselfadjFft b.2.2.1 logn) (polyMulselfadjFft b.2.2.2 logn) logn)

/-- The target vector `t0, t1`, sign.c 869-887. -/
def target (b : List W × List W × List W × List W) (hm : List Nat) (logn : Nat) : List W × List W :=
  let t := fft (toFpr (hm.map Int.ofNat) logn) logn
  (polyMulconst (polyMulFft t b.2.2.2 logn) inverseOfQ logn, polyMulconst (polyMulFft t b.2.1 logn) (neg inverseOfQ) logn)

/-- The lattice point, sign.c 934-946: the new `t0` and `t1` after `iFFT`. -/
def point (b : List W × List W × List W × List W) (t0 t1 : List W) (logn : Nat) : List W × List W :=
  (ifft (polyAdd (polyMulFft t0 b.1 logn) (polyMulFft t1 b.2.2.1 logn) logn) logn,
   ifft (polyAdd (polyMulFft t1 b.2.2.2 logn) (polyMulFft t0 b.2.1 logn) logn) logn)

/-- One coefficient of `s1`, sign.c 955: `(int32_t)hm[u] - (int32_t)fpr_rint(t0[u])`.  A difference outside the range of `int32_t` is undefined in C; here it wraps. -/
def s1Of (h : Nat) (t : W) : Int := i32 (u32 ((h : Int) - i32 (rint t).toNat))

/-- One coefficient of `s2`, sign.c 974: `(int16_t)-fpr_rint(t1[u])`. -/
def s2Of (t : W) : Int := i16 (-(rint t)).toNat

/-- The squared norm of `s1`, sign.c 949-960 (a product outside the range of `int32_t` is undefined in C; here it wraps). -/
def sqnOf (hm : List Nat) (t0 : List W) (logn : Nat) : Nat :=
  let r := (List.range (2 ^ logn)).foldl (fun st u => accum st (s1Of hm[u]! t0[u]!)) (0, 0)
  r.1 ||| neg32 (r.2 >>> 31)

/-- `do_sign_dyn`, sign.c 783-983: `s2` if the vector is short enough, and the state of the sampler. -/
def doSignDyn {σ : Type} (samp : Samp σ) (f g F G : List Int) (hm : List Nat) (logn : Nat) (st : σ) : Option (Option (List Int) × σ) :=
  let b := basis f g F G logn
  let gr := gram b logn
  let t := target b hm logn
  match ffSampling samp logn logn t.1 t.2 gr.1 gr.2.1 gr.2.2 st with
  | none => none
  | some z =>
    let p := point b z.1 z.2.1 logn
    let s2 := (List.range (2 ^ logn)).map fun u => s2Of p.2[u]!
    some (if isShortHalf logn (sqnOf hm p.1 logn) s2 then some s2 else none, z.2.2)

/-- `sign_dyn`, sign.c 1243-1286: the signature and the SHAKE context.  `buf i` is what the buffer of the generator held before attempt `i`; `sfuel` bounds the trials of each call of the sampler and
`fuel` the number of attempts. -/
def signDyn (sfuel : Nat) (buf : Nat → Bytes) (f g F G : List Int) (hm : List Nat) (logn : Nat) : Nat → Nat → Shake.Ctx → Option (List Int × Shake.Ctx)
  | 0, _, _ => none
  | fuel + 1, i, c =>
    let p := Prng.init (buf i) c
    match doSignDyn (fun p mu isigma => sampler sigmaMin[logn]! mu isigma sfuel p) f g F G hm logn p.1 with
    | none => none
    | some r => match r.1 with
      | some s => some (s, p.2)
      | none => signDyn sfuel buf f g F G hm logn fuel (i + 1) p.2

end Verif.CRef.SignDyn
