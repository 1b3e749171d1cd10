import Verif.CRef.Deepest

/-! # The reduction of the intermediate levels of the NTRU solver: `falcon/nistfalcon/src/keygen.c` 2142-2199, 2398-2425, 3097-3310

Polynomials are lists of coefficients, coefficients are lists of 31-bit words.  The floating-point part (keygen.c 3061-3088, 3104-3108, 3153-3232), which produces the multiplier `k` of a round or gives up, is a parameter.  Of the rows
of `F` and `G` the model keeps the `FGlen` words in use: the words above are not read any more. -/

namespace Verif.CRef.Kg

/-- One round of the first loop of `poly_sub_scaled_ntt`, keygen.c 2166-2190: `k f` modulo prime number `u`. -/
def kfColumn (f : List (List Nat)) (k : List Int) (flen logn u : Nat) : List Nat :=
  let p := (primes[u]!).1
  let p0i := modpNinv31 p
  let r2 := modpR2 p p0i
  let t1 := ntt2 (k.map fun x => modpSet x p) (tabs logn u).1 logn p p0i
  let fk := ntt2 (f.map fun y => zintModSmallSigned y p p0i r2 (modpRx flen p p0i r2)) (tabs logn u).1 logn p p0i
  intt2 ((List.range (2 ^ logn)).map fun v => modpMontymul (modpMontymul t1[v]! fk[v]! p p0i) r2 p p0i) (tabs logn u).2 logn p p0i

/-- `poly_sub_scaled_ntt`, keygen.c 2144-2199; `flen` is given, `Fstride`, `fstride` place the polynomials in memory. -/
def polySubScaledNtt (F f : List (List Nat)) (flen : Nat) (k : List Int) (sch scl logn : Nat) : List (List Nat) :=
  let fk := zintRebuildCRT ((List.range (2 ^ logn)).map fun v => (List.range (flen + 1)).map fun u => (kfColumn f k flen logn u)[v]!) (flen + 1) primes true
  List.zipWith (fun x y => zintSubScaled x y sch scl) F fk

/-- `MAX_BL_LARGE`, keygen.c 2398-2400. -/
def maxBlLarge : List Nat := [2, 2, 5, 7, 12, 21, 40, 78, 157, 308]

/-- `BITLENGTH`, keygen.c 2410-2422. -/
def bitLength : List (Nat × Nat) := [(4, 0), (11, 1), (24, 1), (50, 1), (102, 1), (202, 2), (401, 4), (794, 5), (1577, 8), (3138, 13), (6308, 25)]

/-- `minbl_fg` and `maxbl_fg`, keygen.c 3097-3098. -/
def minBl (depth : Nat) : Nat := (bitLength[depth]!).1 - 6 * (bitLength[depth]!).2
def maxBl (depth : Nat) : Nat := (bitLength[depth]!).1 + 6 * (bitLength[depth]!).2

/-- The state of the reduction loop: `F`, `G`, `FGlen` and `maxbl_FG`. -/
structure ReduceSt where
  F : List (List Nat)
  G : List (List Nat)
  len : Nat
  bl : Nat

/-- The subtraction, keygen.c 3239-3251. -/
def redSub (depth slen logn : Nat) (f F : List (List Nat)) (k : List Int) (scale : Nat) : List (List Nat) :=
  if depth ≤ 4 then polySubScaledNtt F f slen k (scale / 31) (scale % 31) logn else polySubScaled F f k (scale / 31) (scale % 31) logn

/-- `FGlen` and `maxbl_FG` after a round, keygen.c 3259-3265. -/
def redLen (depth scale : Nat) (lb : Nat × Nat) : Nat × Nat :=
  let nb := scale + maxBl depth + 10
  if nb < lb.2 then (if nb + 31 ≤ lb.1 * 31 then lb.1 - 1 else lb.1, nb) else lb

/-- One round of the loop, keygen.c 3147-3265. -/
def reduceStep (depth logn : Nat) (f g : List (List Nat)) (mult : ReduceSt → Nat → Option (List Int)) (st : ReduceSt) (scale : Nat) : Option ReduceSt :=
  match mult st scale with
  | none => none
  | some k =>
    let F := redSub depth maxBlSmall[depth]! logn f st.F k scale
    let G := redSub depth maxBlSmall[depth]! logn g st.G k scale
    let lb := redLen depth scale (st.len, st.bl)
    some ⟨F.map fun x => x.take lb.1, G.map fun x => x.take lb.1, lb.1, lb.2⟩

/-- The values of `scale_k`: from `maxbl_FG - minbl_fg` (keygen.c 3145) down in steps of 25, the last one 0 (3272-3278). -/
def scales (depth : Nat) : List Nat :=
  let s := 31 * maxBlLarge[depth]! - minBl depth
  (List.range ((s + 24) / 25 + 1)).map fun i => s - 25 * i

/-- Sign extension and truncation to `slen` words, keygen.c 3285-3309. -/
def fitLen (slen : Nat) (x : List Nat) : List Nat :=
  if x.length < slen then x ++ List.replicate (slen - x.length) (signWord x) else x.take slen

/-- The reduction of `F` and `G`, keygen.c 3117-3310. -/
def reduceFG (depth logn : Nat) (f g F G : List (List Nat)) (mult : ReduceSt → Nat → Option (List Int)) : Option (List (List Nat) × List (List Nat)) :=
  match (scales depth).foldlM (reduceStep depth logn f g mult) ⟨F, G, maxBlLarge[depth]!, 31 * maxBlLarge[depth]!⟩ with
  | none => none
  | some st => some (st.F.map (fitLen maxBlSmall[depth]!), st.G.map (fitLen maxBlSmall[depth]!))

end Verif.CRef.Kg
