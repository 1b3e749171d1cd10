import Mathlib.Data.Int.ModEq
import Mathlib.Data.Nat.Prime.Basic
import Mathlib.Tactic.Ring
import Mathlib.Tactic.NormNum
import Mathlib.Tactic.Linarith

/-! # Specification of the big integers: what a list of 31-bit words stands for -/

namespace Verif.CRef.Kg

/-- All words are below `2^31`. -/
def Words (l : List ℕ) : Prop := ∀ w ∈ l, w < 2 ^ 31

/-- The number with the digits `l` in base `2^31`, least significant first. -/
def big : List ℕ → ℕ
  | [] => 0
  | w :: ws => w + 2 ^ 31 * big ws

/-- The same digits as a two's complement number of `31 * l.length` bits. -/
def sbig (l : List ℕ) : ℤ := if 2 * big l < 2 ^ (31 * l.length) then (big l : ℤ) else (big l : ℤ) - 2 ^ (31 * l.length)

end Verif.CRef.Kg
