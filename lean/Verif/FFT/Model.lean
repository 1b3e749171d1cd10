import Verif.Bits
import Mathlib.Algebra.Star.Basic
import Mathlib.Algebra.Field.Basic

/-! # `pythonref/fft.py` and `pythonref/ffsampling.py` in exact arithmetic

Python's complex floats are replaced by the elements of a field `K` with a conjugation (`star`); in the theorems `K` is ℂ or any field with the named laws.  `I` stands for `1j`,
`R n i` for `roots_dict[n][i]`.  Rounding errors are therefore not modelled; everything else is: lengths, errors, order of the operations and of the calls of the sampler.
KeyError and IndexError are `indexError`; ZeroDivisionError and UnboundLocalError are `runtimeError`. -/

namespace Verif.FFT

variable {K : Type} [Field K] [StarRing K] [DecidableEq K]

/-- The keys of `roots_dict`, fft_constants.py 2112-2122. -/
def inDict (n : Nat) : Bool := [2, 4, 8, 16, 32, 64, 128, 256, 512, 1024].contains n

/-- `z.real` and `z.imag`. -/
def re (z : K) : K := (z + star z) / 2
def im (I z : K) : K := (z - star z) / (2 * I)

/-- `split`, common.py 8-19. -/
def split (f : List K) : List K × List K :=
  ((List.range (f.length / 2)).map fun i => f.getD (2 * i + 0) 0, (List.range (f.length / 2)).map fun i => f.getD (2 * i + 1) 0)

/-- `merge`, common.py 22-36. -/
def merge (f0 f1 : List K) : Except Err (List K) :=
  if f1.length < f0.length then .error .indexError
  else .ok ((List.range (2 * f0.length)).map fun k => if k % 2 = 0 then f0.getD (k / 2) 0 else f1.getD (k / 2) 0)

/-- `split_fft`, fft.py 14-31. -/
def splitFft (R : Nat → Nat → K) (f : List K) : Except Err (List K × List K) :=
  let n := f.length
  if inDict n then
    .ok ((List.range (n / 2)).map fun i => 1 / 2 * (f.getD (2 * i) 0 + f.getD (2 * i + 1) 0),
      (List.range (n / 2)).map fun i => 1 / 2 * (f.getD (2 * i) 0 - f.getD (2 * i + 1) 0) * star (R n (2 * i)))
  else .error .indexError

/-- `merge_fft`, fft.py 34-51. -/
def mergeFft (R : Nat → Nat → K) (f0 f1 : List K) : Except Err (List K) :=
  let n := 2 * f0.length
  if inDict n then
    if f1.length < f0.length then .error .indexError
    else .ok ((List.range n).map fun k =>
      if k % 2 = 0 then f0.getD (k / 2) 0 + R n (2 * (k / 2)) * f1.getD (k / 2) 0 else f0.getD (k / 2) 0 - R n (2 * (k / 2)) * f1.getD (k / 2) 0)
  else .error .indexError

/-- `fft`, fft.py 54-72; one unit of fuel per level. -/
def fftLoop (R : Nat → Nat → K) (I : K) : Nat → List K → Except Err (List K)
  | 0, _ => .error .runtimeError
  | fuel + 1, f =>
    if 2 < f.length then
      match fftLoop R I fuel (split f).1 with
      | .error e => .error e
      | .ok a => match fftLoop R I fuel (split f).2 with
        | .error e => .error e
        | .ok b => mergeFft R a b
    else if f.length = 2 then .ok [f.getD 0 0 + I * f.getD 1 0, f.getD 0 0 - I * f.getD 1 0]
    else .error .runtimeError

def fft (R : Nat → Nat → K) (I : K) (f : List K) : Except Err (List K) := fftLoop R I (f.length + 1) f

/-- `ifft`, fft.py 75-93. -/
def ifftLoop (R : Nat → Nat → K) (I : K) : Nat → List K → Except Err (List K)
  | 0, _ => .error .runtimeError
  | fuel + 1, f =>
    if 2 < f.length then
      match splitFft R f with
      | .error e => .error e
      | .ok (a, b) => match ifftLoop R I fuel a with
        | .error e => .error e
        | .ok a' => match ifftLoop R I fuel b with
          | .error e => .error e
          | .ok b' => merge a' b'
    else if f.length = 2 then .ok [re (f.getD 0 0), im I (f.getD 0 0)]
    else .error .runtimeError

def ifft (R : Nat → Nat → K) (I : K) (f : List K) : Except Err (List K) := ifftLoop R I (f.length + 1) f

/-- `add`, `add_fft`, fft.py 96-100, 129-131. -/
def add (f g : List K) : Except Err (List K) :=
  if f.length = g.length then .ok ((List.range f.length).map fun i => f.getD i 0 + g.getD i 0) else .error .assertError

/-- `neg`, fft.py 103-106. -/
def neg (f : List K) : List K := (List.range f.length).map fun i => -f.getD i 0

/-- `sub`, `sub_fft`, fft.py 109-111, 134-136. -/
def sub (f g : List K) : Except Err (List K) := add f (neg g)

/-- `mul_fft`, fft.py 139-142. -/
def mulFft (f g : List K) : Except Err (List K) :=
  if g.length < f.length then .error .indexError else .ok ((List.range f.length).map fun i => f.getD i 0 * g.getD i 0)

/-- `div_fft`, fft.py 145-149: dividing by zero raises. -/
def divFft (f g : List K) : Except Err (List K) :=
  if f.length = g.length then
    if (List.range f.length).any (fun i => g.getD i 0 = 0) then .error .runtimeError
    else .ok ((List.range f.length).map fun i => f.getD i 0 / g.getD i 0)
  else .error .assertError

/-- `adj_fft`, fft.py 152-155. -/
def adjFft (f : List K) : List K := (List.range f.length).map fun i => star (f.getD i 0)

/-- `mul`, fft.py 114-116. -/
def mul (R : Nat → Nat → K) (I : K) (f g : List K) : Except Err (List K) :=
  match fft R I f with
  | .error e => .error e
  | .ok a => match fft R I g with
    | .error e => .error e
    | .ok b => match mulFft a b with
      | .error e => .error e
      | .ok c => ifft R I c

/-- `div`, fft.py 119-121. -/
def div (R : Nat → Nat → K) (I : K) (f g : List K) : Except Err (List K) :=
  match fft R I f with
  | .error e => .error e
  | .ok a => match fft R I g with
    | .error e => .error e
    | .ok b => match divFft a b with
      | .error e => .error e
      | .ok c => ifft R I c

/-- `adj`, fft.py 124-126. -/
def adj (R : Nat → Nat → K) (I : K) (f : List K) : Except Err (List K) :=
  match fft R I f with
  | .error e => .error e
  | .ok a => ifft R I (adjFft a)

/-! ## Matrices and trees -/

/-- A 2 × 2 matrix of polynomials `[[a, b], [c, d]]`. -/
structure Mat (K : Type) where
  a : List K
  b : List K
  c : List K
  d : List K

/-- One entry of `gram`, ffsampling.py 28-29: `0 + x0 * adj(y0) + x1 * adj(y1)`. -/
def gramEntry (R : Nat → Nat → K) (I : K) (deg : Nat) (x0 x1 y0 y1 : List K) : Except Err (List K) :=
  match adj R I y0 with
  | .error e => .error e
  | .ok y0' => match mul R I x0 y0' with
    | .error e => .error e
    | .ok p0 => match add (List.replicate deg 0) p0 with
      | .error e => .error e
      | .ok s0 => match adj R I y1 with
        | .error e => .error e
        | .ok y1' => match mul R I x1 y1' with
          | .error e => .error e
          | .ok p1 => add s0 p1

/-- `gram` of a 2 × 2 matrix, ffsampling.py 15-30. -/
def gram (R : Nat → Nat → K) (I : K) (B : Mat K) : Except Err (Mat K) :=
  match gramEntry R I B.a.length B.a B.b B.a B.b with
  | .error e => .error e
  | .ok g00 => match gramEntry R I B.a.length B.a B.b B.c B.d with
    | .error e => .error e
    | .ok g01 => match gramEntry R I B.a.length B.c B.d B.a B.b with
      | .error e => .error e
      | .ok g10 => match gramEntry R I B.a.length B.c B.d B.c B.d with
        | .error e => .error e
        | .ok g11 => .ok ⟨g00, g01, g10, g11⟩

/-- What `ldl` and `ldl_fft` compute: `L = [[1, 0], [l10, 1]]`, `D = [[d00, 0], [0, d11]]`. -/
structure LDL (K : Type) where
  L : Mat K
  D : Mat K

/-- `ldl`, ffsampling.py 33-59 (coefficient representation). -/
def ldl (R : Nat → Nat → K) (I : K) (G : Mat K) : Except Err (LDL K) :=
  let deg := G.a.length
  let zero := List.replicate deg 0
  let one := 1 :: List.replicate (deg - 1) 0
  match div R I G.c G.a with
  | .error e => .error e
  | .ok l10 => match adj R I l10 with
    | .error e => .error e
    | .ok l10' => match mul R I l10 l10' with
      | .error e => .error e
      | .ok p => match mul R I p G.a with
        | .error e => .error e
        | .ok p' => match sub G.d p' with
          | .error e => .error e
          | .ok d11 => .ok ⟨⟨one, zero, l10, one⟩, ⟨G.a, zero, zero, d11⟩⟩

/-- `ldl_fft`, ffsampling.py 62-86. -/
def ldlFft (G : Mat K) : Except Err (LDL K) :=
  let deg := G.a.length
  let zero := List.replicate deg 0
  let one := List.replicate deg 1
  match divFft G.c G.a with
  | .error e => .error e
  | .ok l10 => match mulFft l10 (adjFft l10) with
    | .error e => .error e
    | .ok p => match mulFft p G.a with
      | .error e => .error e
      | .ok p' => match sub G.d p' with
        | .error e => .error e
        | .ok d11 => .ok ⟨⟨one, zero, l10, one⟩, ⟨G.a, zero, zero, d11⟩⟩

/-- An ffLDL tree: Python lists `[l10, T0, T1]` and, below the lowest ones, plain lists of numbers. -/
inductive Tree (K : Type) where
  | leaf (l : List K)
  | node (l10 : List K) (T0 T1 : Tree K)

/-- `ffldl`, ffsampling.py 89-115 (coefficient representation).  Lengths below 2 make the Python function return `None`, after `ldl` has already raised. -/
def ffldlLoop (R : Nat → Nat → K) (I : K) : Nat → Mat K → Except Err (Tree K)
  | 0, _ => .error .runtimeError
  | fuel + 1, G =>
    match ldl R I G with
    | .error e => .error e
    | .ok ld =>
      if 2 < G.a.length then
        match adj R I (split ld.D.a).2 with
        | .error e => .error e
        | .ok d01' => match adj R I (split ld.D.d).2 with
          | .error e => .error e
          | .ok d11' => match ffldlLoop R I fuel ⟨(split ld.D.a).1, (split ld.D.a).2, d01', (split ld.D.a).1⟩ with
            | .error e => .error e
            | .ok T0 => match ffldlLoop R I fuel ⟨(split ld.D.d).1, (split ld.D.d).2, d11', (split ld.D.d).1⟩ with
              | .error e => .error e
              | .ok T1 => .ok (.node ld.L.c T0 T1)
      else if G.a.length = 2 then .ok (.node ld.L.c (.leaf (ld.D.a.set 1 0)) (.leaf (ld.D.d.set 1 0)))
      else .error .typeError

def ffldl (R : Nat → Nat → K) (I : K) (G : Mat K) : Except Err (Tree K) := ffldlLoop R I (G.a.length + 1) G

/-- `ffldl_fft`, ffsampling.py 118-141. -/
def ffldlFftLoop (R : Nat → Nat → K) : Nat → Mat K → Except Err (Tree K)
  | 0, _ => .error .runtimeError
  | fuel + 1, G =>
    match ldlFft G with
    | .error e => .error e
    | .ok ld =>
      if 2 < G.a.length then
        match splitFft R ld.D.a with
        | .error e => .error e
        | .ok (d00, d01) => match splitFft R ld.D.d with
          | .error e => .error e
          | .ok (d10, d11) => match ffldlFftLoop R fuel ⟨d00, d01, adjFft d01, d00⟩ with
            | .error e => .error e
            | .ok T0 => match ffldlFftLoop R fuel ⟨d10, d11, adjFft d11, d10⟩ with
              | .error e => .error e
              | .ok T1 => .ok (.node ld.L.c T0 T1)
      else if G.a.length = 2 then .ok (.node ld.L.c (.leaf ld.D.a) (.leaf ld.D.d))
      else .error .typeError

def ffldlFft (R : Nat → Nat → K) (G : Mat K) : Except Err (Tree K) := ffldlFftLoop R (G.a.length + 1) G

/-- `normalize_tree`, falcon.py 168-183; `sq` is the square root. -/
def normalizeTree (sq : K → K) (sigma : K) : Tree K → Tree K
  | .node l10 T0 T1 => .node l10 (normalizeTree sq sigma T0) (normalizeTree sq sigma T1)
  | .leaf l => .leaf ((l.set 0 (sigma / sq (re (l.getD 0 0)))).set 1 0)

/-! ## Nearest plane and sampling -/

/-- The sampler at the leaves: random state, centre, standard deviation (or `None`) to an integer and a new state.  `samplerz` for `ffsampling_fft`. -/
abbrev LeafSampler (St K : Type) := St → K → Option K → Int × St

/-- `ffsampling_fft`, ffsampling.py 195-219, for any leaf sampler; `useLeaf`: whether the leaf's value `T[0]` is read (`ffnp_fft`, 171-192, ignores it and rounds). -/
def ffSamplingLoop {St : Type} (R : Nat → Nat → K) (S : LeafSampler St K) (useLeaf : Bool) : Nat → List K → List K → Tree K → St → Except Err ((List K × List K) × St)
  | 0, _, _, _, _ => .error .runtimeError
  | fuel + 1, t0, t1, T, st =>
    if 1 < t0.length then
      match T with
      | .leaf _ => .error .valueError
      | .node l10 T0 T1 =>
        match splitFft R t1 with
        | .error e => .error e
        | .ok (a, b) => match ffSamplingLoop R S useLeaf fuel a b T1 st with
          | .error e => .error e
          | .ok ((za, zb), st) => match mergeFft R za zb with
            | .error e => .error e
            | .ok z1 => match sub t1 z1 with
              | .error e => .error e
              | .ok d => match mulFft d l10 with
                | .error e => .error e
                | .ok m => match add t0 m with
                  | .error e => .error e
                  | .ok t0b => match splitFft R t0b with
                    | .error e => .error e
                    | .ok (a, b) => match ffSamplingLoop R S useLeaf fuel a b T0 st with
                      | .error e => .error e
                      | .ok ((za, zb), st) => match mergeFft R za zb with
                        | .error e => .error e
                        | .ok z0 => .ok ((z0, z1), st)
    else if t0.length = 1 then
      if useLeaf then
        match T with
        | .node _ _ _ => .error .typeError
        | .leaf l => match l with
          | [] => .error .indexError
          | sigma :: _ => match t1 with
            | [] => .error .indexError
            | c1 :: _ =>
              let r0 := S st (re (t0.getD 0 0)) (some sigma)
              let r1 := S r0.2 (re c1) (some sigma)
              .ok (([(r0.1 : K)], [(r1.1 : K)]), r1.2)
      else match t1 with
        | [] => .error .indexError
        | c1 :: _ =>
          let r0 := S st (re (t0.getD 0 0)) none
          let r1 := S r0.2 (re c1) none
          .ok (([(r0.1 : K)], [(r1.1 : K)]), r1.2)
    else .error .typeError

/-- `ffsampling_fft`. -/
def ffSampling {St : Type} (R : Nat → Nat → K) (S : LeafSampler St K) (t0 t1 : List K) (T : Tree K) (st : St) : Except Err ((List K × List K) × St) :=
  ffSamplingLoop R S true (t0.length + 1) t0 t1 T st

/-- `ffnp_fft`, ffsampling.py 171-192; `rnd` is `round`. -/
def ffnpFft (R : Nat → Nat → K) (rnd : K → Int) (t0 t1 : List K) (T : Tree K) : Except Err (List K × List K) :=
  match ffSamplingLoop (St := Unit) R (fun st c _ => (rnd c, st)) false (t0.length + 1) t0 t1 T () with
  | .error e => .error e
  | .ok (z, _) => .ok z

/-- `ffnp`, ffsampling.py 144-168 (coefficient representation). -/
def ffnpLoop (R : Nat → Nat → K) (I : K) (rnd : K → Int) : Nat → List K → List K → Tree K → Except Err (List K × List K)
  | 0, _, _, _ => .error .runtimeError
  | fuel + 1, t0, t1, T =>
    if 1 < t0.length then
      match T with
      | .leaf _ => .error .valueError
      | .node l10 T0 T1 =>
        match ffnpLoop R I rnd fuel (split t1).1 (split t1).2 T1 with
        | .error e => .error e
        | .ok (za, zb) => match merge za zb with
          | .error e => .error e
          | .ok z1 => match sub t1 z1 with
            | .error e => .error e
            | .ok d => match mul R I d l10 with
              | .error e => .error e
              | .ok m => match add t0 m with
                | .error e => .error e
                | .ok t0b => match ffnpLoop R I rnd fuel (split t0b).1 (split t0b).2 T0 with
                  | .error e => .error e
                  | .ok (za, zb) => match merge za zb with
                    | .error e => .error e
                    | .ok z0 => .ok (z0, z1)
    else if t0.length = 1 then
      match t1 with
      | [] => .error .indexError
      | c1 :: _ => .ok ([(rnd (t0.getD 0 0) : K)], [(rnd c1 : K)])
    else .error .typeError

def ffnp (R : Nat → Nat → K) (I : K) (rnd : K → Int) (t0 t1 : List K) (T : Tree K) : Except Err (List K × List K) := ffnpLoop R I rnd (t0.length + 1) t0 t1 T

/-! ## Keys and signatures -/

/-- The lattice basis, its transforms and the normalised tree of `SecretKey.__init__`, falcon.py 357-369. -/
def mkTree (R : Nat → Nat → K) (I : K) (sq : K → K) (sigma : K) (f g F G : List K) : Except Err (Mat K × Tree K) :=
  let B : Mat K := ⟨g, neg f, G, neg F⟩
  match gram R I B with
  | .error e => .error e
  | .ok G0 => match fft R I B.a, fft R I B.b, fft R I B.c, fft R I B.d with
    | .ok a, .ok b, .ok c, .ok d => match fft R I G0.a, fft R I G0.b, fft R I G0.c, fft R I G0.d with
      | .ok ga, .ok gb, .ok gc, .ok gd => match ffldlFft R ⟨ga, gb, gc, gd⟩ with
        | .error e => .error e
        | .ok T => .ok (⟨a, b, c, d⟩, normalizeTree sq sigma T)
      | _, _, _, _ => .error .runtimeError
    | _, _, _, _ => .error .runtimeError

/-- `sample_preimage`, falcon.py 390-426, and `sample_preimage_with_prng`, 428-440: `B = [[a, b], [c, d]]` is `B0_fft`; the result before the rounding `int(round(...))` of `v0`, `v1`. -/
def preimageFft {St : Type} (R : Nat → Nat → K) (I : K) (S : LeafSampler St K) (B : Mat K) (T : Tree K) (point : List K) (st : St) : Except Err ((List K × List K) × St) :=
  match fft R I point with
  | .error e => .error e
  | .ok p =>
    let t0 := (List.range p.length).map fun i => p.getD i 0 * B.d.getD i 0 / 12289
    let t1 := (List.range p.length).map fun i => -p.getD i 0 * B.b.getD i 0 / 12289
    match ffSampling R S t0 t1 T st with
    | .error e => .error e
    | .ok ((z0, z1), st) => match mulFft z0 B.a, mulFft z1 B.c, mulFft z0 B.b, mulFft z1 B.d with
      | .ok x0, .ok y0, .ok x1, .ok y1 => match add x0 y0, add x1 y1 with
        | .ok v0f, .ok v1f => match ifft R I v0f, ifft R I v1f with
          | .ok v0, .ok v1 => .ok ((v0, v1), st)
          | _, _ => .error .runtimeError
        | _, _ => .error .runtimeError
      | _, _, _, _ => .error .runtimeError

/-- The signature pair: rounding, `sub(point, v0)` and `neg(v1)`, falcon.py 420-426. -/
def samplePreimageFft {St : Type} (R : Nat → Nat → K) (I : K) (S : LeafSampler St K) (rnd : K → Int) (B : Mat K) (T : Tree K) (point : List Int) (st : St) :
    Except Err ((List Int × List Int) × St) :=
  match preimageFft R I S B T (point.map fun x : Int => (x : K)) st with
  | .error e => .error e
  | .ok ((v0, v1), st) =>
    if point.length = v0.length then
      .ok ((List.zipWith (· - ·) point (v0.map rnd), (v1.map rnd).map fun x => -x), st)
    else .error .assertError

end Verif.FFT
