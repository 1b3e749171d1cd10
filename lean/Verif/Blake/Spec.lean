import Verif.Bits

/-! # Specification: BLAKE2s as in RFC 7693 (no key, 32-byte digest) -/

namespace Verif.Blake

/-- Section 2.6: the initialisation vector. -/
def iv (i : Nat) : BitVec 32 :=
  match i with
  | 0 => 0x6A09E667 | 1 => 0xBB67AE85 | 2 => 0x3C6EF372 | 3 => 0xA54FF53A | 4 => 0x510E527F | 5 => 0x9B05688C | 6 => 0x1F83D9AB | _ => 0x5BE0CD19

/-- Section 2.7: the message schedule. -/
def sigma (r : Nat) : List Nat :=
  match r with
  | 0 => [0, 1, 2, 3, 4, 5, 6, 7, 8, 9, 10, 11, 12, 13, 14, 15]
  | 1 => [14, 10, 4, 8, 9, 15, 13, 6, 1, 12, 0, 2, 11, 7, 5, 3]
  | 2 => [11, 8, 12, 0, 5, 2, 15, 13, 10, 14, 3, 6, 7, 1, 9, 4]
  | 3 => [7, 9, 3, 1, 13, 12, 11, 14, 2, 6, 5, 10, 4, 0, 15, 8]
  | 4 => [9, 0, 5, 7, 2, 4, 10, 15, 14, 1, 11, 12, 6, 8, 3, 13]
  | 5 => [2, 12, 6, 10, 0, 11, 8, 3, 4, 13, 7, 5, 15, 14, 1, 9]
  | 6 => [12, 5, 1, 15, 14, 13, 4, 10, 0, 7, 6, 3, 9, 2, 8, 11]
  | 7 => [13, 11, 7, 14, 12, 1, 3, 9, 5, 0, 15, 4, 8, 6, 2, 10]
  | 8 => [6, 15, 14, 9, 11, 3, 0, 8, 12, 2, 13, 7, 1, 4, 10, 5]
  | _ => [10, 2, 8, 4, 7, 6, 1, 5, 15, 11, 9, 14, 3, 12, 13, 0]

abbrev State := Fin 16 → BitVec 32

/-- Section 3.1: the mixing function on four words. -/
def mixG (a b c d x y : BitVec 32) : BitVec 32 × BitVec 32 × BitVec 32 × BitVec 32 :=
  let a := a + b + x; let d := (d ^^^ a).rotateRight 16
  let c := c + d;     let b := (b ^^^ c).rotateRight 12
  let a := a + b + y; let d := (d ^^^ a).rotateRight 8
  let c := c + d;     let b := (b ^^^ c).rotateRight 7
  (a, b, c, d)

/-- `G(v, i, j, k, l, x, y)`. -/
def gAt (i j k l : Fin 16) (x y : BitVec 32) (v : State) : State := fun n =>
  let r := mixG (v i) (v j) (v k) (v l) x y
  if n = i then r.1 else if n = j then r.2.1 else if n = k then r.2.2.1 else if n = l then r.2.2.2 else v n

/-- One round with the message words `m`. -/
def round (m : Nat → BitVec 32) (s : List Nat) (v : State) : State :=
  let w := fun i => m (s.getD i 0)
  gAt 3 4 9 14 (w 14) (w 15) (gAt 2 7 8 13 (w 12) (w 13) (gAt 1 6 11 12 (w 10) (w 11) (gAt 0 5 10 15 (w 8) (w 9)
    (gAt 3 7 11 15 (w 6) (w 7) (gAt 2 6 10 14 (w 4) (w 5) (gAt 1 5 9 13 (w 2) (w 3) (gAt 0 4 8 12 (w 0) (w 1) v)))))))

/-- Rounds `0, …, n-1`. -/
def rounds (m : Nat → BitVec 32) : Nat → State → State
  | 0, v => v
  | n + 1, v => round m (sigma n) (rounds m n v)

/-- Section 3.2: the local state of the compression function. -/
def start (h : Nat → BitVec 32) (t : Nat) (last : Bool) : State := fun i =>
  if i.val < 8 then h i
  else if i.val = 12 then iv 4 ^^^ BitVec.ofNat 32 t
  else if i.val = 13 then iv 5 ^^^ BitVec.ofNat 32 (t / 2 ^ 32)
  else if i.val = 14 ∧ last = true then ~~~ iv 6
  else iv (i.val - 8)

/-- Section 3.2: the compression function `F(h, m, t, f)`. -/
def compressF (h m : Nat → BitVec 32) (t : Nat) (last : Bool) (i : Nat) : BitVec 32 :=
  let v := rounds m 10 (start h t last)
  h i ^^^ v (Fin.ofNat 16 i) ^^^ v (Fin.ofNat 16 (i + 8))

/-- Word `i` of a byte string padded with zeros: four bytes, least significant first. -/
def wordAt (msg : Bytes) (i : Nat) : BitVec 32 :=
  BitVec.ofNat 32 (msg.getD (4 * i) 0 + 256 * msg.getD (4 * i + 1) 0 + 256 ^ 2 * msg.getD (4 * i + 2) 0 + 256 ^ 3 * msg.getD (4 * i + 3) 0)

/-- Section 3.3: the state before block `n`, all earlier blocks being full. -/
def stateBefore (msg : Bytes) : Nat → Nat → BitVec 32
  | 0, i => if i = 0 then iv 0 ^^^ 0x01010000 ^^^ 32 else iv i
  | n + 1, i => compressF (stateBefore msg n) (fun w => wordAt msg (16 * n + w)) (64 * (n + 1)) false i

/-- The number of blocks: at least one. -/
def blocks (len : Nat) : Nat := max 1 ((len + 63) / 64)

/-- Section 3.3: the final state; the last block carries the length and the flag. -/
def blake2s (msg : Bytes) (i : Nat) : BitVec 32 :=
  let n := blocks msg.length - 1
  compressF (stateBefore msg n) (fun w => wordAt msg (16 * n + w)) msg.length true i

/-- The 32-byte digest. -/
def digest (msg : Bytes) : Bytes := (List.range 32).map fun p => (blake2s msg (p / 4)).toNat / 256 ^ (p % 4) % 256

/-- The number a byte string denotes, least significant byte first. -/
def leValue : Bytes → Nat
  | [] => 0
  | b :: r => b + 256 * leValue r

/-- The four bytes of a word, least significant first. -/
def wordBytes (w : Nat) : Bytes := [w % 256, w / 256 % 256, w / 256 ^ 2 % 256, w / 256 ^ 3 % 256]

end Verif.Blake
