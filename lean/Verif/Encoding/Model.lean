import Verif.Bits
/-
Model of /repo/pythonref/encoding.py (whole file).
Python strings of '0'/'1' characters are `List Bool`.
-/

namespace Verif.Encoding
open Verif

/-- Loop body of `compress`, encoding.py lines 18-25: the bit string `s` for one coefficient.
`format(abs(coef) % (1 << 7), '#09b')[2:]` is the 7-digit binary expansion. -/
def encodeCoef (coef : Int) : List Bool :=
  (if coef < 0 then [true] else [false])
    ++ natBits 7 (coef.natAbs % 2 ^ 7)
    ++ (List.replicate (coef.natAbs >>> 7) false ++ [true])

/-- encoding.py lines 17-25: the accumulation of `u` over the loop. -/
def encodeAll (v : List Int) : List Bool :=
  v.foldl (fun u coef => u ++ encodeCoef coef) []

/-- `compress(v, slen)`, encoding.py lines 6-32.  `none` is the Python value `False`. -/
def compress (v : List Int) (slen : Nat) : Option Bytes :=
  let u := encodeAll v
  if u.length > 8 * slen then none
  else
    let u := u ++ List.replicate (8 * slen - u.length) false
    some ((List.range (u.length / 8)).map fun i => bitsNat ((u.drop (8 * i)).take 8))

/-- encoding.py lines 45-47: `bin((1 << 8) ^ elt)[3:]` is the 8-digit expansion of a byte. -/
def unpack (x : Bytes) : List Bool :=
  x.foldl (fun u elt => u ++ natBits 8 elt) []

/-- `while u[-1] == "0": u = u[:-1]`, encoding.py lines 51-52, on the reversed string;
`u[-1]` on an empty string raises IndexError (outside the `try`). -/
def stripRev : List Bool → Except Err (List Bool)
  | [] => .error .indexError
  | false :: r => stripRev r
  | true :: r => .ok (true :: r)

/-- encoding.py lines 51-52. -/
def strip (u : List Bool) : Except Err (List Bool) :=
  (stripRev u.reverse).map List.reverse

/-- The unary scan `while (u[i] == "0")`, encoding.py lines 60-64, on the suffix of `u` from
index `i`; result: the number of zeros and the string after the terminating '1'
(`u[i + 1:]`, line 72).  `none` is the IndexError of reading past the end. -/
def scanUnary : List Bool → Option (Nat × List Bool)
  | [] => none
  | true :: r => some (0, r)
  | false :: r => (scanUnary r).map fun p => (p.1 + 1, p.2)

theorem scanUnary_length : ∀ (u : List Bool) (h : Nat) (r : List Bool), scanUnary u = some (h, r) → r.length < u.length
  | [], _, _, e => by simp [scanUnary] at e
  | true :: r, _, _, e => by simp [scanUnary] at e; simp [e.2]
  | false :: r, h, r', e => by
    simp only [scanUnary, Option.map_eq_some_iff] at e
    obtain ⟨⟨a, b⟩, h1, h2⟩ := e
    have := scanUnary_length r a b h1
    simp only [Prod.mk.injEq] at h2
    simp [← h2.2]; omega

/-- `sign = -1 if u[0] == "1" else 1`, encoding.py line 57. -/
def signOf (s : Bool) : Int := if s then -1 else 1

/-- The main loop of `decompress`, encoding.py lines 54-79.  Result `ok none` is the Python value
`False` (including the caught IndexError); `error valueError` is the uncaught
`int('', 2)` of line 59 when only one bit is left. -/
def loop (u : List Bool) (v : List Int) (n : Nat) : Except Err (Option (List Int)) :=
  match u with
  | [] => .ok (if v.length ≠ n then none else some v)
  | s :: t =>
    if v.length < n then
      let sign := signOf s
      let lowBits := t.take 7
      if lowBits = [] then .error .valueError
      else
        let low := bitsNat lowBits
        match h : scanUnary (t.drop 7) with
        | none => .ok none
        | some (high, rest) =>
          let coef : Int := sign * ((low + (high <<< 7) : Nat) : Int)
          if coef = 0 ∧ sign = -1 then .ok none
          else loop rest (v ++ [coef]) n
    else .ok (if v.length ≠ n then none else some v)
termination_by u.length
decreasing_by
  have := scanUnary_length _ _ _ h
  simp at *; omega

/-- `decompress(x, slen, n)`, encoding.py lines 35-79.  `ok none` is `False`. -/
def decompress (x : Bytes) (slen n : Nat) : Except Err (Option (List Int)) :=
  if x.length > slen then .ok none
  else do
    let u ← strip (unpack x)
    loop u [] n

/-- `decode16(x, n)`, encoding.py lines 81-95. -/
def decode16 (x : Bytes) : Except Err (List Nat) :=
  if x.length % 2 ≠ 0 then .error .valueError
  else .ok ((List.range (x.length / 2)).map fun i => x.getD (2 * i + 1) 0 + (x.getD (2 * i) 0 <<< 8))

end Verif.Encoding
