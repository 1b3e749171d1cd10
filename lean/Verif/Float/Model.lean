import Verif.FFT.Model
import Verif.FFT.TableData
import Verif.FFT.Table

/-! # `sample_preimage` of the Python signer in floating point: `pythonref/fft.py`, `pythonref/ffsampling.py` 195-219, `pythonref/falcon.py` 357-369, 390-440

A float is the real number it stands for; `fl` is the rounding of one operation of the floating-point unit, a parameter about which the theorems assume only a bound on its error.  Infinities, NaNs and the sign of
zero have no counterpart: outside the range of the assumption `fl` may return anything.  The operations on complex numbers are those of CPython's complexobject.c.  Where Python mixes `int` and `complex`, the integer
is converted first (`ofInt`), as CPython does; the inputs of `fft` are converted at the start instead of at the bottom of the recursion (splitting only moves them).
KeyError and IndexError are `indexError`; UnboundLocalError is `runtimeError`. -/

namespace Verif.PyFloat

open Verif.FFT (inDict Mat)

variable (fl : ℝ → ℝ)

/-- An `int` in complex arithmetic. -/
noncomputable def ofInt (x : ℤ) : ℂ := ⟨fl x, 0⟩

/-- `a + b`. -/
noncomputable def cadd (a b : ℂ) : ℂ := ⟨fl (a.re + b.re), fl (a.im + b.im)⟩

/-- `a - b`. -/
noncomputable def csub (a b : ℂ) : ℂ := ⟨fl (a.re - b.re), fl (a.im - b.im)⟩

/-- `a * b`. -/
noncomputable def cmul (a b : ℂ) : ℂ := ⟨fl (fl (a.re * b.re) - fl (a.im * b.im)), fl (fl (a.re * b.im) + fl (a.im * b.re))⟩

/-- `a / b` for `b ≠ 0` (`_Py_c_quot`). -/
noncomputable def cdiv (a b : ℂ) : ℂ :=
  if |b.im| ≤ |b.re| then
    let ratio := fl (b.im / b.re)
    let denom := fl (b.re + fl (b.im * ratio))
    ⟨fl (fl (a.re + fl (a.im * ratio)) / denom), fl (fl (a.im - fl (a.re * ratio)) / denom)⟩
  else
    let ratio := fl (b.re / b.im)
    let denom := fl (fl (b.re * ratio) + b.im)
    ⟨fl (fl (fl (a.re * ratio) + a.im) / denom), fl (fl (fl (a.im * ratio) - a.re) / denom)⟩

/-- `roots_dict[n][i]`, fft_constants.py: the decimals of the table, rounded when the module is compiled. -/
noncomputable def root (n i : ℕ) : ℂ := ⟨fl ((((FFT.Table.tbl (Nat.log2 n)).getD i 0).1 : ℝ) / 10 ^ 17), fl ((((FFT.Table.tbl (Nat.log2 n)).getD i 0).2 : ℝ) / 10 ^ 17)⟩

/-- `split`, common.py 8-19. -/
noncomputable def split (f : List ℂ) : List ℂ × List ℂ :=
  ((List.range (f.length / 2)).map fun i => f.getD (2 * i + 0) 0, (List.range (f.length / 2)).map fun i => f.getD (2 * i + 1) 0)

/-- `merge`, common.py 22-36. -/
noncomputable def merge (f0 f1 : List ℝ) : Except Err (List ℝ) :=
  if f1.length < f0.length then .error .indexError
  else .ok ((List.range (2 * f0.length)).map fun k => if k % 2 = 0 then f0.getD (k / 2) 0 else f1.getD (k / 2) 0)

/-- `split_fft`, fft.py 14-31. -/
noncomputable def splitFft (f : List ℂ) : Except Err (List ℂ × List ℂ) :=
  let n := f.length
  if inDict n then
    .ok ((List.range (n / 2)).map fun i => cmul fl ⟨1 / 2, 0⟩ (cadd fl (f.getD (2 * i) 0) (f.getD (2 * i + 1) 0)),
      (List.range (n / 2)).map fun i => cmul fl (cmul fl ⟨1 / 2, 0⟩ (csub fl (f.getD (2 * i) 0) (f.getD (2 * i + 1) 0))) (star (root fl n (2 * i))))
  else .error .indexError

/-- `merge_fft`, fft.py 34-51. -/
noncomputable def mergeFft (f0 f1 : List ℂ) : Except Err (List ℂ) :=
  let n := 2 * f0.length
  if inDict n then
    if f1.length < f0.length then .error .indexError
    else .ok ((List.range n).map fun k =>
      if k % 2 = 0 then cadd fl (f0.getD (k / 2) 0) (cmul fl (root fl n (2 * (k / 2))) (f1.getD (k / 2) 0))
      else csub fl (f0.getD (k / 2) 0) (cmul fl (root fl n (2 * (k / 2))) (f1.getD (k / 2) 0)))
  else .error .indexError

/-- `fft`, fft.py 54-72; one unit of fuel per level. -/
noncomputable def fftLoop : ℕ → List ℂ → Except Err (List ℂ)
  | 0, _ => .error .runtimeError
  | fuel + 1, f =>
    if 2 < f.length then
      match fftLoop fuel (split f).1 with
      | .error e => .error e
      | .ok a => match fftLoop fuel (split f).2 with
        | .error e => .error e
        | .ok b => mergeFft fl a b
    else if f.length = 2 then .ok [cadd fl (f.getD 0 0) (cmul fl ⟨0, 1⟩ (f.getD 1 0)), csub fl (f.getD 0 0) (cmul fl ⟨0, 1⟩ (f.getD 1 0))]
    else .error .runtimeError

noncomputable def fft (f : List ℤ) : Except Err (List ℂ) := fftLoop fl (f.length + 1) (f.map (ofInt fl))

/-- `ifft`, fft.py 75-93. -/
noncomputable def ifftLoop : ℕ → List ℂ → Except Err (List ℝ)
  | 0, _ => .error .runtimeError
  | fuel + 1, f =>
    if 2 < f.length then
      match splitFft fl f with
      | .error e => .error e
      | .ok (a, b) => match ifftLoop fuel a with
        | .error e => .error e
        | .ok a' => match ifftLoop fuel b with
          | .error e => .error e
          | .ok b' => merge a' b'
    else if f.length = 2 then .ok [(f.getD 0 0).re, (f.getD 0 0).im]
    else .error .runtimeError

noncomputable def ifft (f : List ℂ) : Except Err (List ℝ) := ifftLoop fl (f.length + 1) f

/-- `add`, `add_fft`, fft.py 96-100, 129-131. -/
noncomputable def add (f g : List ℂ) : Except Err (List ℂ) :=
  if f.length = g.length then .ok ((List.range f.length).map fun i => cadd fl (f.getD i 0) (g.getD i 0)) else .error .assertError

/-- `sub`, `sub_fft`, fft.py 109-111, 134-136: `add(f, neg(g))`. -/
noncomputable def sub (f g : List ℂ) : Except Err (List ℂ) := add fl f ((List.range g.length).map fun i => -g.getD i 0)

/-- `mul_fft`, fft.py 139-142. -/
noncomputable def mulFft (f g : List ℂ) : Except Err (List ℂ) :=
  if g.length < f.length then .error .indexError else .ok ((List.range f.length).map fun i => cmul fl (f.getD i 0) (g.getD i 0))

/-- `samplerz` at a leaf: random state, centre and the leaf's value to an integer and a new state, or an exception. -/
abbrev Sampler (St : Type) := St → ℝ → ℂ → Except Err (ℤ × St)

/-- `ffsampling_fft`, ffsampling.py 195-219. -/
noncomputable def ffSamplingLoop {St : Type} (S : Sampler St) : ℕ → List ℂ → List ℂ → FFT.Tree ℂ → St → Except Err ((List ℂ × List ℂ) × St)
  | 0, _, _, _, _ => .error .runtimeError
  | fuel + 1, t0, t1, T, st =>
    if 1 < t0.length then
      match T with
      | .leaf _ => .error .valueError
      | .node l10 T0 T1 =>
        match splitFft fl t1 with
        | .error e => .error e
        | .ok (a, b) => match ffSamplingLoop S fuel a b T1 st with
          | .error e => .error e
          | .ok ((za, zb), st) => match mergeFft fl za zb with
            | .error e => .error e
            | .ok z1 => match sub fl t1 z1 with
              | .error e => .error e
              | .ok d => match mulFft fl d l10 with
                | .error e => .error e
                | .ok m => match add fl t0 m with
                  | .error e => .error e
                  | .ok t0b => match splitFft fl t0b with
                    | .error e => .error e
                    | .ok (a, b) => match ffSamplingLoop S fuel a b T0 st with
                      | .error e => .error e
                      | .ok ((za, zb), st) => match mergeFft fl za zb with
                        | .error e => .error e
                        | .ok z0 => .ok ((z0, z1), st)
    else if t0.length = 1 then
      match T with
      | .node _ _ _ => .error .typeError
      | .leaf l => match l with
        | [] => .error .indexError
        | sigma :: _ => match S st (t0.getD 0 0).re sigma with
          | .error e => .error e
          | .ok r0 => match t1 with
            | [] => .error .indexError
            | c1 :: _ => match S r0.2 c1.re sigma with
              | .error e => .error e
              | .ok r1 => .ok (([ofInt fl r0.1], [ofInt fl r1.1]), r1.2)
    else .error .typeError

/-- `round`: the nearest integer, an even one for ties. -/
noncomputable def pyRound (x : ℝ) : ℤ :=
  if x - ⌊x⌋ < 1 / 2 then ⌊x⌋ else if 1 / 2 < x - ⌊x⌋ then ⌊x⌋ + 1 else if ⌊x⌋ % 2 = 0 then ⌊x⌋ else ⌊x⌋ + 1

/-- `B0_fft`, falcon.py 357-363. -/
noncomputable def basis (f g F G : List ℤ) : Except Err (Mat ℂ) :=
  match fft fl g with
  | .error e => .error e
  | .ok a => match fft fl (f.map fun x => -x) with
    | .error e => .error e
    | .ok b => match fft fl G with
      | .error e => .error e
      | .ok c => match fft fl (F.map fun x => -x) with
        | .error e => .error e
        | .ok d => .ok ⟨a, b, c, d⟩

/-- `sample_preimage`, falcon.py 390-426, and `sample_preimage_with_prng`, 428-440. -/
noncomputable def samplePreimage {St : Type} (S : Sampler St) (B : Mat ℂ) (T : FFT.Tree ℂ) (point : List ℤ) (st : St) : Except Err ((List ℤ × List ℤ) × St) :=
  match fft fl point with
  | .error e => .error e
  | .ok p =>
    let t0 := (List.range p.length).map fun i => cdiv fl (cmul fl (p.getD i 0) (B.d.getD i 0)) (ofInt fl 12289)
    let t1 := (List.range p.length).map fun i => cdiv fl (cmul fl (-p.getD i 0) (B.b.getD i 0)) (ofInt fl 12289)
    match ffSamplingLoop fl S (t0.length + 1) t0 t1 T st with
    | .error e => .error e
    | .ok ((z0, z1), st) => match mulFft fl z0 B.a with
      | .error e => .error e
      | .ok x0 => match mulFft fl z1 B.c with
        | .error e => .error e
        | .ok y0 => match add fl x0 y0 with
          | .error e => .error e
          | .ok v0f => match mulFft fl z0 B.b with
            | .error e => .error e
            | .ok x1 => match mulFft fl z1 B.d with
              | .error e => .error e
              | .ok y1 => match add fl x1 y1 with
                | .error e => .error e
                | .ok v1f => match ifft fl v0f with
                  | .error e => .error e
                  | .ok v0 => match ifft fl v1f with
                    | .error e => .error e
                    | .ok v1 =>
                      if point.length = v0.length then
                        .ok ((List.zipWith (· - ·) point (v0.map pyRound), (v1.map pyRound).map fun x => -x), st)
                      else .error .assertError

end Verif.PyFloat
