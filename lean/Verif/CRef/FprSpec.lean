import Verif.Bits
import Mathlib.Data.Real.Basic
import Mathlib.Algebra.Order.Floor.Ring
import Mathlib.Data.Int.Log
import Mathlib.Data.Real.Archimedean

/-! # Specification of binary64 arithmetic (IEEE 754), without subnormals, infinities and NaNs -/

namespace Verif.CRef.Fpr

/-- Sign bit, exponent field, mantissa field. -/
def sgn (x : BitVec 64) : ℕ := x.toNat / 2 ^ 63
def expo (x : BitVec 64) : ℕ := x.toNat / 2 ^ 52 % 2 ^ 11
def mant (x : BitVec 64) : ℕ := x.toNat % 2 ^ 52

/-- A zero or a normal number. -/
def Ok (x : BitVec 64) : Prop := expo x ≠ 2047 ∧ (expo x = 0 → mant x = 0)

/-- The number encoded by a word. -/
noncomputable def val (x : BitVec 64) : ℝ := if expo x = 0 then 0 else (-1) ^ sgn x * ((2 ^ 52 + mant x : ℕ) : ℝ) * (2 : ℝ) ^ ((expo x : ℤ) - 1075)

/-- Nearest integer, ties to even. -/
noncomputable def rne (r : ℝ) : ℤ :=
  if r - ⌊r⌋ < 1 / 2 then ⌊r⌋ else if 1 / 2 < r - ⌊r⌋ then ⌊r⌋ + 1 else if Even ⌊r⌋ then ⌊r⌋ else ⌊r⌋ + 1

/-- Rounding to 53 significant bits: the unit in the last place is `2^(⌊log2 |r|⌋ - 52)`. -/
noncomputable def rnd (r : ℝ) : ℝ := if r = 0 then 0 else rne (r / (2 : ℝ) ^ (Int.log 2 |r| - 52)) * (2 : ℝ) ^ (Int.log 2 |r| - 52)

/-- `z` is the rounding of `r`: below the normal range a zero; up to the largest number that does not round to infinity, the nearest 53-bit number, ties to even.  Larger `r` are not covered. -/
def Rounded (r : ℝ) (z : BitVec 64) : Prop :=
  (|r| < (2 : ℝ) ^ (-1022 : ℤ) → Ok z ∧ val z = 0) ∧ ((2 : ℝ) ^ (-1022 : ℤ) ≤ |r| → |r| < 2 ^ 1024 - 2 ^ 970 → Ok z ∧ val z = rnd r)

/-- The integer an `int64_t` stands for. -/
def int64 (x : BitVec 64) : ℤ := if x.toNat < 2 ^ 63 then x.toNat else (x.toNat : ℤ) - 2 ^ 64

end Verif.CRef.Fpr
