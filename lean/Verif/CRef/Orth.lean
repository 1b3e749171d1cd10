import Verif.CRef.SignDyn
import Verif.CRef.FprConst

/-! # The test of the orthogonalized norm in key generation: `keygen.c` 4217-4243 -/

namespace Verif.CRef.Orth

open Verif.CRef.Fpr Verif.CRef.Fft Verif.CRef.SignDyn

/-- `poly_invnorm2_fft`, fft.c 492-513; only the first `n / 2` words are written. -/
def polyInvnorm2Fft (a b : List W) (logn : Nat) : List W :=
  (List.range (2 ^ logn / 2)).map fun u =>
    inv (add (add (sqr (slot a (2 ^ logn / 2) u).1) (sqr (slot a (2 ^ logn / 2) u).2)) (add (sqr (slot b (2 ^ logn / 2) u).1) (sqr (slot b (2 ^ logn / 2) u).2)))

/-- `poly_mul_autoadj_fft`, fft.c 545-558. -/
def polyMulAutoadjFft (a b : List W) (logn : Nat) : List W :=
  ofSlots logn fun u => (mul (slot a (2 ^ logn / 2) u).1 b[u]!, mul (slot a (2 ^ logn / 2) u).2 b[u]!)

/-- The sum of squares, keygen.c 4236-4240. -/
def bnormOf (r1 r2 : List W) (logn : Nat) : W :=
  (List.range (2 ^ logn)).foldl (fun acc u => add (add acc (sqr r1[u]!)) (sqr r2[u]!)) fprZero

/-- The orthogonalized vector, keygen.c 4220-4235 (`poly_small_to_fp`, 2496-2505, is `toFpr`): `f` and `g` are transformed, `rt3` is the inverse of `|f|^2 + |g|^2`. -/
def orthVec (f g : List Int) (logn : Nat) : List W × List W :=
  let rt1 := fft (toFpr f logn) logn
  let rt2 := fft (toFpr g logn) logn
  let rt3 := polyInvnorm2Fft rt1 rt2 logn
  let row := fun rt => ifft (polyMulAutoadjFft (polyMulconst (polyAdjFft rt logn) fprQ logn) rt3 logn) logn
  (row rt1, row rt2)

/-- `bnorm`, keygen.c 4220-4240. -/
def bnorm (f g : List Int) (logn : Nat) : W := bnormOf (orthVec f g logn).1 (orthVec f g logn).2 logn

/-- The test, keygen.c 4241: the key is kept when `fpr_lt(bnorm, fpr_bnorm_max)`. -/
def orthTest (logn : Nat) (f g : List Int) : Bool := lt (bnorm f g logn) fprBnormMax

end Verif.CRef.Orth
