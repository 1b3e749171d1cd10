import Verif.CRef.Lift

/-! # The levels of the NTRU solver together: `falcon/nistfalcon/src/keygen.c` 3974-4000 -/

namespace Verif.CRef.Kg

/-- The deepest level and `s` intermediate ones (keygen.c 3974-4000): the result at depth `logn - s`.  The multipliers may be chosen differently at each depth. -/
def solveLevels (logn : Nat) (f g : List Int) (mult : Nat → List (List Nat) → List (List Nat) → ReduceSt → Nat → Option (List Int)) : Nat → Option (List (List Nat) × List (List Nat))
  | 0 => match solveDeepest logn f g with
    | none => none
    | some (F, G) => some ([F], [G])
  | s + 1 => match solveLevels logn f g mult s with
    | none => none
    | some (F, G) => solveIntermediate logn (logn - (s + 1)) f g F G (mult (logn - (s + 1)))

end Verif.CRef.Kg
