import Verif.Bits
import Mathlib.Data.Rat.Floor

/-! # The samplers `pythonref/samplerz.py` and `pythonref/mkgauss.py`

Floating-point numbers are modelled by exact rationals (`LN2`, `ILN2`, `MAX_SIGMA` are the decimals written in the source): rounding errors of the
floating-point operations on `mu`, `sigma`, `x`, `r`, `ccs` are not modelled.  All integer arithmetic is exact. -/

namespace Verif.Sampler

/-- A source of random bytes with internal state: `randombytes(k)`. -/
abbrev Rng (S : Type) := ℕ → S → Bytes × S

/-- `int.from_bytes(b, "little")`. -/
def le (b : Bytes) : ℕ := b.foldr (fun x acc => x + 256 * acc) 0

/-! ## samplerz.py -/

/-- `RCDT`, samplerz.py 23-41. -/
def rcdt : List ℕ :=
  [3024686241123004913666, 1564742784480091954050, 636254429462080897535,
   199560484645026482916, 47667343854657281903, 8595902006365044063,
   1163297957344668388, 117656387352093658, 8867391802663976,
   496969357462633, 20680885154299, 638331848991,
   14602316184, 247426747, 3104126,
   28824, 198, 1]

/-- `C`, samplerz.py 49-62. -/
def expC : List ℤ :=
  [0x00000004741183A3, 0x00000036548CFC06, 0x0000024FDCBF140A, 0x0000171D939DE045,
   0x0000D00CF58F6F84, 0x000680681CF796E3, 0x002D82D8305B0FEA, 0x011111110E066FD0,
   0x0555555555070F00, 0x155555555581FF00, 0x400000000002B400, 0x7FFFFFFFFFFF4800,
   0x8000000000000000]

/-- `MAX_SIGMA`, `INV_2SIGMA2`, `LN2`, `ILN2`, samplerz.py 10-18. -/
def maxSigma : ℚ := 18205 / 10 ^ 4
def inv2Sigma2 : ℚ := 1 / (2 * maxSigma ^ 2)
def ln2 : ℚ := 69314718056 / 10 ^ 11
def iln2 : ℚ := 144269504089 / 10 ^ 11

/-- The loop of `basesampler`, samplerz.py 73-76. -/
def baseOf (u : ℕ) : ℕ := rcdt.foldl (fun z0 elt => z0 + if u < elt then 1 else 0) 0

/-- `basesampler`, samplerz.py 65-76: nine bytes, little-endian. -/
def basesampler {S : Type} (R : Rng S) (s : S) : ℕ × S :=
  let (b, s) := R (72 >>> 3) s
  (baseOf (le b), s)

/-- `int(x)` of a number: truncation towards zero. -/
def pyInt (x : ℚ) : ℤ := x.num.tdiv x.den

/-- The polynomial loop of `approxexp`, samplerz.py 92-96, for the integer `z`. -/
def horner (z : ℤ) : ℤ := expC.tail.foldl (fun y elt => elt - ((z * y) >>> 63)) (expC.headD 0)

/-- `approxexp`, samplerz.py 79-99. -/
def approxexp (x ccs : ℚ) : ℤ :=
  let y := horner (pyInt (x * (1 <<< 63 : ℕ)))
  let z := pyInt (ccs * (1 <<< 63 : ℕ)) <<< 1
  (z * y) >>> 63

/-- The comparison loop of `berexp`, samplerz.py 112-117, over the shifts that remain: `w` is the last difference. -/
def berLoop {S : Type} (R : Rng S) (z : ℤ) : List ℕ → ℤ → S → ℤ × S
  | [], w, s => (w, s)
  | i :: is, _, s =>
    let (b, s) := R 1 s
    let w := (le b : ℤ) - (z >>> i) % 256
    if w ≠ 0 then (w, s) else berLoop R z is w s

/-- The threshold `z`, samplerz.py 108-111; a negative shift count raises. -/
def berThreshold (x ccs : ℚ) : Except Err ℤ :=
  let s := pyInt (x * iln2)
  let r := x - s * ln2
  let s := min s 63
  if s < 0 then .error .valueError else .ok ((approxexp r ccs - 1) >>> s.toNat)

/-- `berexp`, samplerz.py 102-117. -/
def berexp {S : Type} (R : Rng S) (x ccs : ℚ) (s : S) : Except Err (Bool × S) :=
  match berThreshold x ccs with
  | .error e => .error e
  | .ok z =>
    let (w, s) := berLoop R z [56, 48, 40, 32, 24, 16, 8, 0] 0 s
    .ok (decide (w < 0), s)

/-- The exponent `x`, samplerz.py 150-151. -/
def exponent (z : ℤ) (z0 : ℕ) (r dss : ℚ) : ℚ := ((z : ℚ) - r) ^ 2 * dss - (z0 : ℚ) ^ 2 * inv2Sigma2

/-- The loop of `samplerz`, samplerz.py 142-153.  `none`: the fuel ran out. -/
def sampleLoop {S : Type} (R : Rng S) (s : ℤ) (r dss ccs : ℚ) : ℕ → S → Option (Except Err (ℤ × S))
  | 0, _ => none
  | fuel + 1, st =>
    let (z0, st) := basesampler R st
    let (bb, st) := R 1 st
    let b := le bb % 2
    let z : ℤ := b + (2 * b - 1) * z0
    match berexp R (exponent z z0 r dss) ccs st with
    | .error e => some (.error e)
    | .ok (true, st) => some (.ok (z + s, st))
    | .ok (false, st) => sampleLoop R s r dss ccs fuel st

/-- `samplerz`, samplerz.py 120-153; `sigma = 0` raises. -/
def samplerz {S : Type} (R : Rng S) (mu sigma sigmin : ℚ) (fuel : ℕ) (st : S) : Option (Except Err (ℤ × S)) :=
  if sigma = 0 then some (.error .valueError)
  else sampleLoop R ⌊mu⌋ (mu - ⌊mu⌋) (1 / (2 * sigma * sigma)) (sigmin / sigma) fuel st

/-! ## mkgauss.py -/

/-- `gauss_1024_12289`, mkgauss.py 1-11. -/
def gaussTable : List ℕ :=
  [1283868770400643928, 6416574995475331444, 4078260278032692663,
   2353523259288686585, 1227179971273316331, 575931623374121527,
   242543240509105209, 91437049221049666, 30799446349977173,
   9255276791179340, 2478152334826140, 590642893610164,
   125206034929641, 23590435911403, 3948334035941,
   586753615614, 77391054539, 9056793210,
   940121950, 86539696, 7062824,
   510971, 32764, 1862,
   94, 4, 0]

/-- The inner loop, mkgauss.py 29-32, for the masked word `r`, over the indices that remain.
For `t` and `f` bits, `k & -(t & (f ^ 1))` is `k` when `t = 1` and `f = 0`, else 0; `(r - g) >> 63 & 1` is 1 exactly when `r < g` (both below `2^63`). -/
def gaussScan (r : ℕ) : List ℕ → ℕ → ℕ → ℕ
  | [], _, v => v
  | k :: ks, f, v =>
    let t := (if r < gaussTable.getD k 0 then 1 else 0) ^^^ 1
    gaussScan r ks (f ||| t) (v ||| (if t &&& (f ^^^ 1) = 1 then k else 0))

/-- One draw, mkgauss.py 21-37, from the two 64-bit words `r1`, `r2`.  Two's complement: `-neg & 0xFFFFFFFF` is `(2^32 - neg) % 2^32`. -/
def gaussDraw (r1 r2 : ℕ) : ℤ :=
  let neg := r1 >>> 63
  let r1 := r1 % 2 ^ 63
  let f := if r1 < gaussTable.getD 0 0 then 1 else 0
  let r2 := r2 % 2 ^ 63
  let v : ℕ := gaussScan r2 ((List.range 26).map (· + 1)) f 0
  let v : ℕ := (v ^^^ ((2 ^ 32 - neg) % 2 ^ 32)) + neg
  let v : ℕ := v % 2 ^ 32
  if v ≥ 0x80000000 then (v : ℤ) - 0x100000000 else v

/-- The loop of `mkgauss`, mkgauss.py 20-38: `g` draws. -/
def gaussSum {S : Type} (R : Rng S) : ℕ → ℤ → S → ℤ × S
  | 0, val, s => (val, s)
  | g + 1, val, s =>
    let (b1, s) := R 8 s
    let (b2, s) := R 8 s
    gaussSum R g (val + gaussDraw (le b1) (le b2)) s

/-- `mkgauss`, mkgauss.py 17-39; a negative shift count raises ValueError. -/
def mkgauss {S : Type} (R : Rng S) (logn : ℕ) (s : S) : Except Err (ℤ × S) :=
  if logn > 10 then .error .valueError else .ok (gaussSum R (1 <<< (10 - logn)) 0 s)

/-- The `while True` of `poly_small_mkgauss`, mkgauss.py 45-54, for index `u`: result `(s, mod2, rng)`.  `none`: the fuel ran out. -/
def smallCoef {S : Type} (R : Rng S) (n logn u mod2 : ℕ) : ℕ → S → Option (Except Err (ℤ × ℕ × S))
  | 0, _ => none
  | fuel + 1, st =>
    match mkgauss R logn st with
    | .error e => some (.error e)
    | .ok (s, st) =>
      if s < -127 ∨ s > 127 then smallCoef R n logn u mod2 fuel st
      else if u = n - 1 then
        if mod2 ^^^ (s % 2).toNat = 0 then smallCoef R n logn u mod2 fuel st
        else some (.ok (s, mod2, st))
      else some (.ok (s, mod2 ^^^ (s % 2).toNat, st))

/-- The loop over `u`, mkgauss.py 44-55: `k` coefficients remain, the next index is `u`. -/
def smallLoop {S : Type} (R : Rng S) (n logn fuel : ℕ) : ℕ → ℕ → ℕ → S → Option (Except Err (List ℤ × S))
  | 0, _, _, s => some (.ok ([], s))
  | k + 1, u, mod2, s =>
    match smallCoef R n logn u mod2 fuel s with
    | none => none
    | some (.error e) => some (.error e)
    | some (.ok (c, mod2, s)) =>
      match smallLoop R n logn fuel k (u + 1) mod2 s with
      | none => none
      | some (.error e) => some (.error e)
      | some (.ok (f, s)) => some (.ok (c :: f, s))

/-- `poly_small_mkgauss`, mkgauss.py 41-56. -/
def polySmall {S : Type} (R : Rng S) (n logn fuel : ℕ) (s : S) : Option (Except Err (List ℤ × S)) := smallLoop R n logn fuel n 0 0 s

end Verif.Sampler
