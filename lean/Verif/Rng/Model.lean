import Verif.Bits

/-! # The generators `pythonref/rng.py` (ChaCha20) and `pythonref/drbg/aes256_ctr_drbg.py` -/

namespace Verif.Rng

/-! ## rng.py

Python integers are modelled by `Nat`; the hexadecimal buffer `hexbytes` by the bytes it spells. -/

/-- `CW`, rng.py 22. -/
def cw : List Nat := [0x61707865, 0x3320646e, 0x79622d32, 0x6b206574]

/-- `roll`, rng.py 25-30. -/
def roll (x n : Nat) : Nat := (x <<< n) % 2 ^ 32 + x >>> (32 - n)

/-- `int.from_bytes(b, "little")`. -/
def leNat (b : Bytes) : Nat := b.foldr (fun x acc => x + 256 * acc) 0

/-- The object: seed words, counter, buffer. -/
structure ChaCha where
  s : List Nat
  ctr : Nat
  buf : Bytes
deriving DecidableEq, Repr

/-- `__init__`, rng.py 35-42 (missing seed bytes count as zero, as Python slices do). -/
def ChaCha.init (src : Bytes) : ChaCha :=
  let s := (List.range 14).map fun i => leNat ((src.drop (4 * i)).take 4)
  { s := s, ctr := s.getD 12 0 + (s.getD 13 0) <<< 32, buf := [] }

/-- `qround`, rng.py 55-76. -/
def qround (st : List Nat) (A B C D : Nat) : List Nat :=
  let a := st.getD A 0
  let b := st.getD B 0
  let c := st.getD C 0
  let d := st.getD D 0
  let a := (a + b) % 2 ^ 32
  let d := roll (d ^^^ a) 16
  let c := (c + d) % 2 ^ 32
  let b := roll (b ^^^ c) 12
  let a := (a + b) % 2 ^ 32
  let d := roll (d ^^^ a) 8
  let c := (c + d) % 2 ^ 32
  let b := roll (b ^^^ c) 7
  (((st.set A a).set B b).set C c).set D d

/-- The eight quarter rounds of the loop body, rng.py 89-97. -/
def doubleRound (st : List Nat) : List Nat :=
  let st := qround st 0 4 8 12
  let st := qround st 1 5 9 13
  let st := qround st 2 6 10 14
  let st := qround st 3 7 11 15
  let st := qround st 0 5 10 15
  let st := qround st 1 6 11 12
  let st := qround st 2 7 8 13
  qround st 3 4 9 14

/-- The matrix filled in by `update`, rng.py 82-86. -/
def ChaCha.matrix (c : ChaCha) : List Nat :=
  cw ++ c.s.take 10 ++ [c.s.getD 10 0 ^^^ (c.ctr % 2 ^ 32), c.s.getD 11 0 ^^^ (c.ctr >>> 32)]

/-- Ten double rounds and the final addition, rng.py 87-99. -/
def core (state : List Nat) : List Nat :=
  let st := (List.range 10).foldl (fun st _ => doubleRound st) state
  (List.range 16).map fun i => (st.getD i 0 + state.getD i 0) % 2 ^ 32

/-- `update`, rng.py 78-101. -/
def ChaCha.update (c : ChaCha) : List Nat × ChaCha := (core c.matrix, { c with ctr := c.ctr + 1 })

/-- `elt.to_bytes(4, "little")` (OverflowError for `elt ≥ 2^32` does not arise: the elements are reduced). -/
def le4 (x : Nat) : Bytes := [x % 256, x / 256 % 256, x / 256 ^ 2 % 256, x / 256 ^ 3 % 256]

/-- The loop of `block_update`, rng.py 107-109: `k` updates. -/
def updates : Nat → ChaCha → List (List Nat) × ChaCha
  | 0, c => ([], c)
  | k + 1, c =>
    let (w, c) := c.update
    let (ws, c) := updates k c
    (w :: ws, c)

/-- `block_update`, rng.py 103-110: `block[i::8] = update()` puts word `j` of the `i`-th update at position `8 j + i`. -/
def ChaCha.blockUpdate (c : ChaCha) : Bytes × ChaCha :=
  let (us, c) := updates 8 c
  let block := (List.range (16 * 8)).map fun p => (us.getD (p % 8) []).getD (p / 8) 0
  (block.flatMap le4, c)

/-- `randombytes`, rng.py 112-123.  The two-digit groups are reversed on line 121 and the bytes again on line 123. -/
def ChaCha.randombytes (c : ChaCha) (k : Nat) : Bytes × ChaCha :=
  let c := if k > c.buf.length then (let (b, c) := c.blockUpdate; { c with buf := b }) else c
  let out := (c.buf.take k).reverse
  (out.reverse, { c with buf := c.buf.drop k })

/-- A history of requests. -/
def ChaCha.run (c : ChaCha) : List Nat → List Bytes × ChaCha
  | [] => ([], c)
  | k :: ks =>
    let (b, c) := c.randombytes k
    let (bs, c) := c.run ks
    (b :: bs, c)

/-! ## drbg/aes256_ctr_drbg.py

The block cipher (`AES.new(key, MODE_ECB).encrypt`, from PyCryptodome) is a parameter `E key block`. -/

/-- `xor_bytes`, aes256_ctr_drbg.py 6-11. -/
def xorBytes (a b : Bytes) : Bytes := List.zipWith (· ^^^ ·) a b

structure Drbg where
  key : Bytes
  V : Bytes
  reseedCtr : Nat
deriving DecidableEq, Repr

/-- `int.from_bytes(b, "big")`. -/
def beNat (b : Bytes) : Nat := b.foldl (fun acc x => acc * 256 + x) 0

/-- `x.to_bytes(16, "big")` for `x < 2^128`. -/
def be16 (x : Nat) : Bytes := (List.range 16).map fun i => x / 256 ^ (15 - i) % 256

/-- `__increment_counter`, aes256_ctr_drbg.py 72-78. -/
def incr (V : Bytes) : Bytes := be16 ((beNat V + 1) % 2 ^ 128)

/-- `__ctr_drbg_update`, aes256_ctr_drbg.py 80-101.  The cipher returns 16 bytes, so the loop `while len(tmp) != 48` makes three steps. -/
def Drbg.update (E : Bytes → Bytes → Bytes) (d : Drbg) (data : Bytes) : Drbg :=
  let V1 := incr d.V
  let V2 := incr V1
  let V3 := incr V2
  let tmp := ([] ++ E d.key V1) ++ E d.key V2 ++ E d.key V3
  let tmp := tmp.take 48
  let tmp := xorBytes tmp data
  { d with key := tmp.take 32, V := tmp.drop 32 }

/-- `bytes([0]) * (48 - len(b))` appended. -/
def pad48 (b : Bytes) : Bytes := b ++ List.replicate (48 - b.length) 0

/-- `__init__`, aes256_ctr_drbg.py 14-38, with a given seed (`os.urandom` is not modelled). -/
def Drbg.init (E : Bytes → Bytes → Bytes) (seed personalization : Bytes) : Except Err Drbg :=
  if seed.length ≠ 48 then .error .valueError
  else if personalization.length > 48 then .error .valueError
  else
    let d : Drbg := { key := List.replicate 32 0, V := List.replicate 16 0, reseedCtr := 0 }
    let d := d.update E (xorBytes seed (pad48 personalization))
    .ok { d with reseedCtr := 1 }

/-- `while len(tmp) < num_bytes`, aes256_ctr_drbg.py 133-136. -/
def genLoop (E : Bytes → Bytes → Bytes) (key : Bytes) (num : Nat) : Nat → Bytes → Bytes → Bytes × Bytes
  | 0, V, tmp => (tmp, V)
  | fuel + 1, V, tmp =>
    if tmp.length < num then
      let V := incr V
      genLoop E key num fuel V (tmp ++ E key V)
    else (tmp, V)

/-- `random_bytes`, aes256_ctr_drbg.py 103-142.  Every step of the loop adds bytes, so `num` steps suffice.  `runtimeError` stands for the `Warning` raised on exhaustion.
On an error raised before the first update the object is unchanged. -/
def Drbg.randomBytes (E : Bytes → Bytes → Bytes) (d : Drbg) (num : Nat) (additional : Option Bytes) : Except Err (Bytes × Drbg) :=
  if d.reseedCtr ≥ 2 ^ 48 then .error .runtimeError
  else
    match additional with
    | none =>
      let add := List.replicate 48 0
      let (tmp, V) := genLoop E d.key num num d.V []
      let d' := Drbg.update E { d with V := V } add
      .ok (tmp.take num, { d' with reseedCtr := d'.reseedCtr + 1 })
    | some a =>
      if a.length > 48 then .error .valueError
      else
        let add := pad48 a
        let d := d.update E add
        let (tmp, V) := genLoop E d.key num num d.V []
        let d' := Drbg.update E { d with V := V } add
        .ok (tmp.take num, { d' with reseedCtr := d'.reseedCtr + 1 })

end Verif.Rng
