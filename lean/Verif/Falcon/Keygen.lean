import Verif.Falcon.Model
import Verif.Ring.Model

/-! # Key generation (`ntru_gen`, `SecretKey.__init__`) -/

namespace Verif.Falcon

open Verif Verif.Ring

/-- `ntru_gen`, ntrugen.py 228-256.  `cand k` is the pair `(f, g)` sampled in iteration `k`; `tooLong f g` is the (floating-point) test
`gs_norm(f, g, q) > (1.17 ** 2) * q`, left arbitrary; `K`, `rf` are the floating-point part of `reduce` and the bound on its iterations (`Ring/Model.lean`).
`none`: the fuel ran out, or `reduce` did not end. -/
def ntruGen (P : PolyLib) (K : KOracle) (rf : Nat) (tooLong : List Int → List Int → Bool) (cand : Nat → List Int × List Int) :
    Nat → Nat → Option (Except Err (List Int × List Int × List Int × List Int))
  | 0, _ => none
  | fuel + 1, k =>
    let f := (cand k).1
    let g := (cand k).2
    if tooLong f g then ntruGen P K rf tooLong cand fuel (k + 1)
    else if (P.ntt f).any (· == 0) then ntruGen P K rf tooLong cand fuel (k + 1)
    else match ntruSolve K rf f g with
      | .error .valueError => ntruGen P K rf tooLong cand fuel (k + 1)
      | .error e => some (.error e)
      | .ok none => none
      | .ok (some (F, G)) => some (.ok (f, g, F, G))

/-- `SecretKey(n)` without given polynomials, falcon.py 352-385. -/
def keyGen (P : PolyLib) (K : KOracle) (rf : Nat) (tooLong : List Int → List Int → Bool) (cand : Nat → List Int × List Int) (n fuel : Nat) :
    Option (Except Err SecretKey) :=
  match ntruGen P K rf tooLong cand fuel 0 with
  | none => none
  | some (.error e) => some (.error e)
  | some (.ok (f, g, F, G)) => some (mkSecretKey P n f g F G)

end Verif.Falcon
