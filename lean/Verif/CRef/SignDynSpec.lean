import Verif.CRef.SignDyn
import Verif.CRef.Spec

/-! # Specification of signing: which integers were drawn, and the lattice vector they stand for -/

namespace Verif.CRef.SignDyn

open Verif.Ring Verif.CRef.Fpr

/-- The sampler `samp` with a record of every integer it has returned, in order. -/
def logged {σ : Type} (samp : Samp σ) : Samp (σ × List ℤ) := fun st mu isigma => (samp st.1 mu isigma).map fun r => (r.1, (r.2, st.2 ++ [r.1]))

/-- The list `a 0, b 0, a 1, b 1, …` of length `2 n`. -/
def interleave (n : ℕ) (a b : List ℤ) : List ℤ := (List.range (2 * n)).map fun j => if j % 2 = 0 then a.getD (j / 2) 0 else b.getD (j / 2) 0

/-- The two integer polynomials of degree below `2^k` that `2^(k+1)` drawn integers stand for: the first half of the draws gives the second polynomial. -/
def arrange : ℕ → List ℤ → List ℤ × List ℤ
  | 0, l => ([l.getD 0 0], [l.getD 1 0])
  | k + 1, l =>
    let r := arrange k (l.take (2 ^ (k + 1)))
    let u := arrange k (l.drop (2 ^ (k + 1)))
    (interleave (2 ^ k) u.1 u.2, interleave (2 ^ k) r.1 r.2)

/-- `s1 = c - z0*g - z1*G` and `s2 = z0*f + z1*F` in `Z[x]/(x^n+1)`. -/
def IsVector (n : ℕ) (f g F G : List ℤ) (c : List ℕ) (z0 z1 s1 s2 : List ℤ) : Prop :=
  s1.length = n ∧ s2.length = n ∧ ∀ j < n, s1.getD j 0 = (c.getD j 0 : ℤ) - (negMul n z0 g).getD j 0 - (negMul n z1 G).getD j 0 ∧
    s2.getD j 0 = (negMul n z0 f).getD j 0 + (negMul n z1 F).getD j 0

/-- `n` values of `int8_t`. -/
def Vec8 (n : ℕ) (s : List ℤ) : Prop := s.length = n ∧ ∀ x ∈ s, -128 ≤ x ∧ x ≤ 127

/-- The attempt that starts in the state `st` stays in range: every drawn integer has magnitude at most 32768, and the exact vector they stand for fits 16 bits.  (A Falcon vector has coefficients of a few
hundred; larger ones have negligible probability but no bound.) -/
def Fits {σ : Type} (samp : Samp σ) (f g F G : List ℤ) (c : List ℕ) (logn : ℕ) (st : σ) : Prop :=
  ∀ r st' l, doSignDyn (logged samp) f g F G c logn (st, []) = some (r, (st', l)) →
    (∀ x ∈ l, |x| ≤ 32768) ∧ ∀ s1 s2, IsVector (2 ^ logn) f g F G c (arrange logn l).1 (arrange logn l).2 s1 s2 → Vec16 (2 ^ logn) s1 ∧ Vec16 (2 ^ logn) s2

/-- What makes `h` a public key of `f`, `g`, `F`, `G`: `h*f = g` and `G*f = g*F` modulo q, `f` invertible. -/
def KeyOf (n : ℕ) (f g F G : List ℤ) (h : List ℕ) : Prop :=
  h.length = n ∧ IsUnitPoly n (Falcon.zq f) ∧ negMul n (NTT.toZ 12289 h) (Falcon.zq f) = Falcon.zq g ∧ negMul n (Falcon.zq G) (Falcon.zq f) = negMul n (Falcon.zq g) (Falcon.zq F)

/-- The sampler of the signer as a function of its generator, sign.c 1267-1275. -/
def zSampler (logn sfuel : ℕ) : Samp Prng.Prng := fun p mu isigma => SignSampler.sampler sigmaMin[logn]! mu isigma sfuel p

/-- The generator of attempt `i + k`, when attempt `i` starts with the SHAKE context `c`, and the context it leaves. -/
def attempt (buf : ℕ → Bytes) (i : ℕ) (c : Shake.Ctx) : ℕ → Prng.Prng × Shake.Ctx
  | 0 => Prng.init (buf i) c
  | k + 1 => attempt buf (i + 1) (Prng.init (buf i) c).2 k

end Verif.CRef.SignDyn
