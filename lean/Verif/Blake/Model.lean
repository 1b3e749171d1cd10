import Verif.Bits

/-! # `pythonref/blake2s/blake2s.py`

Python integers are naturals (all words the code builds are non-negative); field elements given by the caller are integers. -/

namespace Verif.Blake

/-- `PRIME`, blake2s.py 6. -/
def prime : Nat := 2 ^ 251 + 17 * 2 ^ 192 + 1

/-- `IV`, blake2s.py 8-17. -/
def IV : List Nat := [0x6A09E667, 0xBB67AE85, 0x3C6EF372, 0xA54FF53A, 0x510E527F, 0x9B05688C, 0x1F83D9AB, 0x5BE0CD19]

/-- `SIGMA`, blake2s.py 19-30. -/
def SIGMA : List (List Nat) := [
  [0, 1, 2, 3, 4, 5, 6, 7, 8, 9, 10, 11, 12, 13, 14, 15],
  [14, 10, 4, 8, 9, 15, 13, 6, 1, 12, 0, 2, 11, 7, 5, 3],
  [11, 8, 12, 0, 5, 2, 15, 13, 10, 14, 3, 6, 7, 1, 9, 4],
  [7, 9, 3, 1, 13, 12, 11, 14, 2, 6, 5, 10, 4, 0, 15, 8],
  [9, 0, 5, 7, 2, 4, 10, 15, 14, 1, 11, 12, 6, 8, 3, 13],
  [2, 12, 6, 10, 0, 11, 8, 3, 4, 13, 7, 5, 15, 14, 1, 9],
  [12, 5, 1, 15, 14, 13, 4, 10, 0, 7, 6, 3, 9, 2, 8, 11],
  [13, 11, 7, 14, 12, 1, 3, 9, 5, 0, 15, 4, 8, 6, 2, 10],
  [6, 15, 14, 9, 11, 3, 0, 8, 12, 2, 13, 7, 1, 4, 10, 5],
  [10, 2, 8, 4, 7, 6, 1, 5, 15, 11, 9, 14, 3, 12, 13, 0]]

/-- `right_rot`, blake2s.py 33-34. -/
def rightRot (value n : Nat) : Nat := (value >>> n) ||| ((value &&& (2 ^ n - 1)) <<< (32 - n))

/-- `mix`, blake2s.py 109-119. -/
def mix (a b c d m0 m1 : Nat) : Nat × Nat × Nat × Nat :=
  let a := (a + b + m0) % 2 ^ 32
  let d := rightRot (d ^^^ a) 16
  let c := (c + d) % 2 ^ 32
  let b := rightRot (b ^^^ c) 12
  let a := (a + b + m1) % 2 ^ 32
  let d := rightRot (d ^^^ a) 8
  let c := (c + d) % 2 ^ 32
  let b := rightRot (b ^^^ c) 7
  (a, b, c, d)

/-- One of the eight assignments of `blake_round`; `x`, `y` are `sigma[2i]`, `sigma[2i+1]`. Lists are long enough (checked by `compress`). -/
def step (message : List Nat) (i j k l x y : Nat) (st : List Nat) : List Nat :=
  let r := mix (st.getD i 0) (st.getD j 0) (st.getD k 0) (st.getD l 0) (message.getD x 0) (message.getD y 0)
  (((st.set i r.1).set j r.2.1).set k r.2.2.1).set l r.2.2.2

/-- `blake_round`, blake2s.py 73-106. -/
def blakeRound (state message sigma : List Nat) : List Nat :=
  let s := fun i => sigma.getD i 0
  let st := step message 0 4 8 12 (s 0) (s 1) state
  let st := step message 1 5 9 13 (s 2) (s 3) st
  let st := step message 2 6 10 14 (s 4) (s 5) st
  let st := step message 3 7 11 15 (s 6) (s 7) st
  let st := step message 0 5 10 15 (s 8) (s 9) st
  let st := step message 1 6 11 12 (s 10) (s 11) st
  let st := step message 2 7 8 13 (s 12) (s 13) st
  step message 3 4 9 14 (s 14) (s 15) st

/-- `blake2s_compress`, blake2s.py 57-70; too short `h` or `message` raise IndexError. -/
def compress (h message : List Nat) (t0 t1 f0 f1 : Nat) : Except Err (List Nat) :=
  if h.length < 8 ∨ message.length < 16 then .error .indexError
  else
    let state := h ++ IV.take 4 ++ [(0x510E527F ^^^ t0) % 2 ^ 32, (0x9B05688C ^^^ t1) % 2 ^ 32, (0x1F83D9AB ^^^ f0) % 2 ^ 32, (0x5BE0CD19 ^^^ f1) % 2 ^ 32]
    let state := (List.range 10).foldl (fun st i => blakeRound st message (SIGMA.getD i [])) state
    .ok (List.zipWith (· ^^^ ·) (List.zipWith (· ^^^ ·) h (state.take 8)) (state.drop 8))

/-- `blake_state_into_felt`, blake2s.py 122-127. -/
def stateIntoFelt (state : List Nat) (prime : Nat) : Nat :=
  ((List.range state.length).foldl (fun acc i => acc ||| ((state.getD i 0 &&& 0xFFFFFFFF) <<< (32 * i))) 0) % prime

/-- The words of one field element, blake2s.py 152-161. -/
def feltWords (encode little : Bool) (prime : Nat) (felt : Int) : List Nat :=
  let val := (felt % (prime : Int)).toNat
  let cnt := if encode ∧ val < 2 ^ 63 then 2 else 8
  let val := if encode ∧ cnt = 8 then val + 2 ^ 255 else val
  let shifts := (List.range cnt).map fun i => 32 * i
  let shifts := if little then shifts else shifts.reverse
  shifts.map fun shift => (val >>> shift) &&& 0xFFFFFFFF

/-- The loop 150-161. -/
def encodeWords (encode little : Bool) (prime : Nat) (data : List Int) : List Nat := data.flatMap (feltWords encode little prime)

/-- The starting state, blake2s.py 163-172. -/
def H0 : List Nat := [0x6B08E647, 0xBB67AE85, 0x3C6EF372, 0xA54FF53A, 0x510E527F, 0x9B05688C, 0x1F83D9AB, 0x5BE0CD19]

/-- The block number `i`, padded with zeros, 177-179. -/
def block (words : List Nat) (i : Nat) : List Nat :=
  let b := (words.drop (16 * i)).take 16
  b ++ List.replicate (16 - b.length) 0

/-- The loop, blake2s.py 173-189: state and `bytes_seen` after the blocks `i, …`; `k` blocks remain. -/
def hashLoop (words : List Nat) : Nat → Nat → List Nat → Nat → Except Err (List Nat)
  | 0, _, state, _ => .ok state
  | k + 1, i, state, seen =>
    let total := words.length * 4
    let seen := seen + min 64 (total - seen)
    let f0 := if seen = total then 0xFFFFFFFF else 0
    match compress state (block words i) seen 0 f0 0 with
    | .error e => .error e
    | .ok state => hashLoop words k (i + 1) state seen

/-- `range(0, max(len(words), 1), 16)` has this many entries. -/
def nBlocks (words : List Nat) : Nat := (max words.length 1 + 15) / 16

/-- `calculate_blake2s_hash_from_felt252s`, blake2s.py 130-191. -/
def hashFelts (data : List Int) (encode little : Bool) (prime : Nat) : Except Err Nat :=
  let words := encodeWords encode little prime data
  match hashLoop words (nBlocks words) 0 H0 0 with
  | .error e => .error e
  | .ok state => .ok (stateIntoFelt state prime)

end Verif.Blake
