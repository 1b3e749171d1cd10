import Verif.Hash.Model
import Verif.Encoding.Model
import Verif.Packing.Model

/-! # Signing and verification in Python (`pythonref/falcon.py`)

Polynomial arithmetic comes from the external package `polyntt` (not in the repository); its methods are the fields of `PolyLib`,
and the properties assumed of it are stated in `Falcon/Spec.lean`. -/

namespace Verif.Falcon

open Verif Verif.Hash

/-- The `polyntt` operations used by falcon.py, falcon_epervier.py, falcon_recovery.py, on coefficient lists modulo `q`:
`Poly.__mul__`, `Poly.__sub__`, `Poly.__truediv__` (`none`: it raises), `Poly.inverse`, `Poly.ntt` / `NTT.ntt`, `NTT.intt`, `NTT.vec_mul`. -/
structure PolyLib where
  mul : List Int → List Int → List Int
  sub : List Int → List Int → List Int
  div : List Int → List Int → Option (List Int)
  inverse : List Int → Option (List Int)
  ntt : List Int → List Int
  intt : List Int → List Int
  vecMul : List Int → List Int → List Int

/-- `Params[n]`, falcon.py 55-136: `(sig_bound, sig_bytelen)`; a missing key raises KeyError. -/
def params : Nat → Option (Nat × Nat)
  | 2 => some (101498, 44)
  | 4 => some (208714, 47)
  | 8 => some (428865, 52)
  | 16 => some (892039, 63)
  | 32 => some (1852696, 82)
  | 64 => some (3842630, 122)
  | 128 => some (7959734, 200)
  | 256 => some (16468416, 356)
  | 512 => some (34034726, 666)
  | 1024 => some (70265242, 1280)
  | _ => none

/-- `logn`, falcon.py 30-41. -/
def logn : Nat → Nat
  | 2 => 1 | 4 => 2 | 8 => 3 | 16 => 4 | 32 => 5 | 64 => 6 | 128 => 7 | 256 => 8 | 512 => 9 | 1024 => 10 | _ => 0

/-- `(coef + (q >> 1)) % q - (q >> 1)`, falcon.py 307 (Python's `%` is non-negative). -/
def centre (c : Int) : Int := (c + 12289 >>> 1) % 12289 - 12289 >>> 1

/-- `sum(coef ** 2 for coef in l)`, falcon.py 310-311. -/
def sumSq (l : List Int) : Int := (l.map fun c => c ^ 2).sum

/-- `PublicKey.verify`, falcon.py 284-318.  `none`: the fuel of the hash loop ran out.  The bound and length are those of `Params[n]`.
(The special case `xof = xof.new()` of lines 299-300 has no effect: `new` is a class method.) -/
def verify {S : Type} (P : PolyLib) (X : Xof S) (n bound bytelen : Nat) (pk : List Int) (message signature : Bytes) (fuel : Nat) :
    Option (Except Err Bool) :=
  let salt := (signature.drop 1).take 40
  let encS := signature.drop (1 + 40)
  match Encoding.decompress encS (bytelen - 1 - 40) n with
  | .error e => some (.error e)
  | .ok none => some (.ok false)
  | .ok (some s1) =>
    match hashToPoint X n message salt fuel with
    | none => none
    | some (.error e) => some (.error e)
    | some (.ok hashed) =>
      let s0 := (P.sub (hashed.map fun x : Nat => (x : Int)) (P.mul s1 pk)).map centre
      let normSign := sumSq s0 + sumSq s1
      if normSign > bound then some (.ok false) else some (.ok true)

/-- `sub`, `neg`, fft.py: coefficientwise. -/
def psub (a b : List Int) : List Int := List.zipWith (· - ·) a b
def padd (a b : List Int) : List Int := List.zipWith (· + ·) a b
def pneg (a : List Int) : List Int := a.map (- ·)

/-- Product of integer polynomials modulo `x^n + 1`, the exact value of `ifft(mul_fft(fft(a), fft(b)))`:
coefficient `k` is `Σ_{i ≤ k} a_i b_{k-i} - Σ_{i > k} a_i b_{n+k-i}`. -/
def pmul (n : Nat) (a b : List Int) : List Int :=
  (List.range n).map fun k => ((List.range n).map fun i =>
    if i ≤ k then a.getD i 0 * b.getD (k - i) 0 else - (a.getD i 0 * b.getD (n + k - i) 0)).sum

/-- A secret key: the four polynomials and the public key `h` (falcon.py 343-385). -/
structure SecretKey where
  f : List Int
  g : List Int
  F : List Int
  G : List Int
  h : List Int

/-- `SecretKey.__init__` with given polynomials, falcon.py 350-385, without the floating-point tree: the length assertion and `h = g / f`.
`none` in the division: `Poly` raises. -/
def mkSecretKey (P : PolyLib) (n : Nat) (f g F G : List Int) : Except Err SecretKey :=
  if f.length = n ∧ g.length = n ∧ F.length = n ∧ G.length = n then
    match P.div g f with
    | none => .error .valueError
    | some h => .ok ⟨f, g, F, G, h⟩
  else .error .assertError

/-- `sample_preimage` / `sample_preimage_with_prng`, falcon.py 390-440, for the integer vector `z` returned by the sampler:
`v = z * B0` with `B0 = [[g, -f], [G, -F]]`, result `(point - v0, -v1)`.
The floating-point product `int(round(ifft(...)))` is exact here; that it is in floating point too is C110. -/
def samplePreimage (n : Nat) (sk : SecretKey) (point : List Int) (z : List Int × List Int) : List Int × List Int :=
  let v0 := padd (pmul n z.1 sk.g) (pmul n z.2 sk.G)
  let v1 := padd (pmul n z.1 (pneg sk.f)) (pmul n z.2 (pneg sk.F))
  (psub point v0, pneg v1)

/-- The signing loop, falcon.py 459-477: `attempt k` is the pair `s` computed in iteration `k`. `none`: fuel ran out. -/
def signLoop (attempt : Nat → List Int × List Int) (bound slen : Nat) (pre : Bytes) : Nat → Nat → Option Bytes
  | 0, _ => none
  | fuel + 1, k =>
    let s := attempt k
    let normSign := sumSq s.1 + sumSq s.2
    if normSign ≤ bound then
      match Encoding.compress s.2 slen with
      | some encS => some (pre ++ encS)
      | none => signLoop attempt bound slen pre fuel (k + 1)
    else signLoop attempt bound slen pre fuel (k + 1)

/-- `SecretKey.sign`, falcon.py 442-477.  `salt` is the result of `randombytes(40)`; `attempt point k` is the result of `sample_preimage`
in iteration `k` (whatever the source of randomness). -/
def sign {S : Type} (X : Xof S) (n bound bytelen : Nat) (salt message : Bytes) (attempt : List Int → Nat → List Int × List Int)
    (fuel : Nat) : Option (Except Err Bytes) :=
  let header := [0x20 + logn n]
  match hashToPoint X n message salt fuel with
  | none => none
  | some (.error e) => some (.error e)
  | some (.ok hashed) =>
    match signLoop (attempt (hashed.map fun x : Nat => (x : Int))) bound (bytelen - 1 - 40) (header ++ salt) fuel 0 with
    | none => none
    | some sig => some (.ok sig)

end Verif.Falcon
