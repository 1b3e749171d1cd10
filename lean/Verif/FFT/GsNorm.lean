import Verif.FFT.Sampling

/-! # `gs_norm` of `pythonref/ntrugen.py` in exact arithmetic -/

namespace Verif.FFT

variable {K : Type} [Field K] [StarRing K] [DecidableEq K]

/-- `sqnorm` of two polynomials, common.py 39-45. -/
def sqnorm (a b : List K) : K := (a.map fun x => x ^ 2).sum + (b.map fun x => x ^ 2).sum

/-- The two arguments of the final `max` of `gs_norm(f, g, q)`, ntrugen.py 195-206, `q = 12289`. -/
def gsNorms (R : Nat → Nat → K) (I : K) (f g : List K) : Except Err (K × K) :=
  match adj R I f with
  | .error e => .error e
  | .ok fa => match mul R I f fa with
    | .error e => .error e
    | .ok ff => match adj R I g with
      | .error e => .error e
      | .ok ga => match mul R I g ga with
        | .error e => .error e
        | .ok gg => match add ff gg with
          | .error e => .error e
          | .ok ffgg => match div R I ga ffgg with
            | .error e => .error e
            | .ok Ft => match div R I fa ffgg with
              | .error e => .error e
              | .ok Gt => .ok (sqnorm f g, 12289 ^ 2 * sqnorm Ft Gt)

end Verif.FFT
