import Mathlib.Data.ZMod.Basic
import Verif.Ring.Spec

/-! # Specification for the transform properties, independent of the model -/

namespace Verif.NTT

open Verif.Ring Polynomial

/-- A list of words read as coefficients modulo `q`. -/
def toZ (q : ℕ) (a : List ℕ) : List (ZMod q) := List.map (fun x : ℕ => (x : ZMod q)) a

/-- Reversal of the nine low bits: bit 0 goes to bit 8, bit 1 to bit 7, and so on. -/
def brv9 (x : ℕ) : ℕ := (List.range 9).foldl (fun acc i => 2 * acc + x / 2 ^ i % 2) 0

/-- The evaluation points in the order of the transform: odd powers of 49, bit-reversed. -/
def root (x : ℕ) : ZMod 12289 := 49 ^ (2 * brv9 x + 1)

/-- 512 canonical residues modulo 12289. -/
def Poly512 (a : List ℕ) : Prop := a.length = 512 ∧ ∀ x ∈ a, x < 12289

/-- `c` is the product of `a` and `b` in `Z_q[x]/(x^n+1)`, `n` the length of `a`, with canonical coefficients. -/
def IsProduct (q : ℕ) (a b c : List ℕ) : Prop :=
  c.length = a.length ∧ (∀ x ∈ c, x < q) ∧ toZ q c = negMul a.length (toZ q a) (toZ q b)

/-- `b` lists the values of the polynomial `a` at the points `root 0, root 1, ..., root 511`, reduced modulo 12289. -/
def IsTransform (a b : List ℕ) : Prop :=
  Poly512 b ∧ ∀ x < 512, ((b.getD x 0 : ℕ) : ZMod 12289) = (toPoly (toZ 12289 a)).eval (root x)

/-- A byte string read as consecutive big-endian 16-bit numbers. -/
def be16 : List ℕ → List ℕ
  | a :: b :: r => (a * 256 + b) :: be16 r
  | _ => []

end Verif.NTT
