import Verif.Falcon.Model
import Verif.Ring.Spec
import Mathlib.Data.ZMod.Basic
import Mathlib.Algebra.Polynomial.Eval.Defs

/-! # Specification for signing and verification, independent of the model -/

namespace Verif.Falcon

open Verif Verif.Ring

/-- Integer coefficients read modulo 12289. -/
def zq (a : List Int) : List (ZMod 12289) := List.map (fun x : Int => (x : ZMod 12289)) a

/-- The constant polynomial 1 with `n` coefficients. -/
def one (n : Nat) : List (ZMod 12289) := 1 :: List.replicate (n - 1) 0

/-- What is assumed of `polyntt` in dimension `n`, for lists of `n` coefficients (results need not be reduced):
`mul` and `sub` compute in `Z_q[x]/(x^n+1)`; `div g f` returns a quotient `h`, `h*f = g`, and raises when `f` is not invertible. -/
structure Arith (P : PolyLib) (n : Nat) : Prop where
  mul : ∀ a b, a.length = n → b.length = n → (P.mul a b).length = n ∧ zq (P.mul a b) = negMul n (zq a) (zq b)
  sub : ∀ a b, a.length = n → b.length = n → (P.sub a b).length = n ∧ zq (P.sub a b) = List.zipWith (· - ·) (zq a) (zq b)
  div : ∀ a b c, a.length = n → b.length = n → P.div a b = some c →
    c.length = n ∧ negMul n (zq c) (zq b) = zq a ∧ ∃ i : List (ZMod 12289), i.length = n ∧ negMul n (zq b) i = one n

/-- Further assumptions, used only where named: division and inversion succeed for invertible polynomials, `inverse` returns the inverse. -/
structure InvLaw (P : PolyLib) (n : Nat) : Prop where
  div_some : ∀ a b, a.length = n → b.length = n → (∃ i : List (ZMod 12289), i.length = n ∧ negMul n (zq b) i = one n) → ∃ c, P.div a b = some c
  inv_some : ∀ b, b.length = n → (∃ i : List (ZMod 12289), i.length = n ∧ negMul n (zq b) i = one n) → ∃ c, P.inverse b = some c
  inv : ∀ b c, b.length = n → P.inverse b = some c → c.length = n ∧ negMul n (zq b) (zq c) = one n

/-- Residues in `[0, q)`. -/
def Reduced (a : List Int) : Prop := ∀ x ∈ a, 0 ≤ x ∧ x < 12289

/-- What is assumed of the transforms of `polyntt` in dimension `n`: `ntt` evaluates at `n` roots `w 0, ..., w (n-1)` of `x^n = -1` (in whatever order), `intt` is its
two-sided inverse modulo `q`, `vec_mul` multiplies pointwise; results are reduced. -/
structure NttLaw (P : PolyLib) (n : Nat) (w : Nat → ZMod 12289) : Prop where
  root : ∀ i < n, w i ^ n = -1
  ntt : ∀ a, a.length = n → (P.ntt a).length = n ∧ Reduced (P.ntt a) ∧
    ∀ i < n, (((P.ntt a).getD i 0 : Int) : ZMod 12289) = (toPoly (zq a)).eval (w i)
  intt : ∀ a, a.length = n → (P.intt a).length = n ∧ Reduced (P.intt a) ∧ zq (P.ntt (P.intt a)) = zq a
  left : ∀ a, a.length = n → zq (P.intt (P.ntt a)) = zq a
  vec : ∀ a b, a.length = n → b.length = n → (P.vecMul a b).length = n ∧ Reduced (P.vecMul a b) ∧ zq (P.vecMul a b) = List.zipWith (· * ·) (zq a) (zq b)

/-- Squared Euclidean norm. -/
def normSq (l : List Int) : Int := (l.map fun c => c * c).sum

/-- `(s0, s1)` satisfies `s0 + s1*h = c` in `Z_q[x]/(x^n+1)` -/
def IsPreimage (n : Nat) (h c s0 s1 : List Int) : Prop :=
  s0.length = n ∧ s1.length = n ∧ List.zipWith (· + ·) (zq s0) (negMul n (zq s1) (zq h)) = zq c

/-- The key equations: `f*G - g*F = q` over the integers modulo `x^n+1`, `h*f = g` modulo `q`, and `f` invertible modulo `q`. -/
structure IsKey (n : Nat) (sk : SecretKey) : Prop where
  lf : sk.f.length = n
  lg : sk.g.length = n
  lF : sk.F.length = n
  lG : sk.G.length = n
  lh : sk.h.length = n
  ntru : List.zipWith (· - ·) (negMul n sk.f sk.G) (negMul n sk.g sk.F) = 12289 :: List.replicate (n - 1) 0
  pub : negMul n (zq sk.h) (zq sk.f) = zq sk.g
  unit : ∃ i : List (ZMod 12289), i.length = n ∧ negMul n (zq sk.f) i = one n

end Verif.Falcon
