import Verif.Bits

/-! # Specification of the generators: RFC 7539 block function, NIST SP 800-90A CTR_DRBG (no derivation function) -/

namespace Verif.Rng

/-! ## ChaCha20 (RFC 7539, sections 2.1 to 2.3) -/

/-- The quarter round on four 32-bit words. -/
def quarter (a b c d : BitVec 32) : BitVec 32 × BitVec 32 × BitVec 32 × BitVec 32 :=
  let a := a + b; let d := (d ^^^ a).rotateLeft 16
  let c := c + d; let b := (b ^^^ c).rotateLeft 12
  let a := a + b; let d := (d ^^^ a).rotateLeft 8
  let c := c + d; let b := (b ^^^ c).rotateLeft 7
  (a, b, c, d)

abbrev State := Fin 16 → BitVec 32

/-- The quarter round applied to four entries of the state. -/
def onState (f : State) (i j k l : Fin 16) : State := fun x =>
  let r := quarter (f i) (f j) (f k) (f l)
  if x = i then r.1 else if x = j then r.2.1 else if x = k then r.2.2.1 else if x = l then r.2.2.2 else f x

/-- A column round and a diagonal round. -/
def inner (f : State) : State :=
  let f := onState f 0 4 8 12
  let f := onState f 1 5 9 13
  let f := onState f 2 6 10 14
  let f := onState f 3 7 11 15
  let f := onState f 0 5 10 15
  let f := onState f 1 6 11 12
  let f := onState f 2 7 8 13
  onState f 3 4 9 14

def rounds : Nat → State → State
  | 0, f => f
  | n + 1, f => inner (rounds n f)

/-- The block function: twenty rounds, then the original state is added. -/
def rfcBlock (f : State) : State := fun i => rounds 10 f i + f i

/-- Word `i` of a seed: four bytes, least significant first. -/
def seedWord (src : Bytes) (i : Nat) : BitVec 32 :=
  BitVec.ofNat 32 (src.getD (4 * i) 0 + 256 * src.getD (4 * i + 1) 0 + 256 ^ 2 * src.getD (4 * i + 2) 0 + 256 ^ 3 * src.getD (4 * i + 3) 0)

/-- The initial 64-bit counter: words 12 and 13 of the seed. -/
def counter0 (src : Bytes) : Nat := (seedWord src 12).toNat + 2 ^ 32 * (seedWord src 13).toNat

/-- The input of the block function for the counter value `n`: constants, seed words 0 to 9, words 10 and 11 xored with the two halves of the counter. -/
def chachaInput (src : Bytes) (n : BitVec 64) : State := fun i =>
  if i = 0 then 0x61707865 else if i = 1 then 0x3320646e else if i = 2 then 0x79622d32 else if i = 3 then 0x6b206574
  else if i = 14 then seedWord src 10 ^^^ n.extractLsb' 0 32
  else if i = 15 then seedWord src 11 ^^^ n.extractLsb' 32 32
  else seedWord src (i.val - 4)

/-- Byte `p` of chunk `j` (512 bytes, eight blocks, interleaved by words): the bytes `4 w .. 4 w + 3` are word `w / 8` of block number `8 j + w % 8`. -/
def keyByte (src : Bytes) (j p : Nat) : Nat :=
  ((rfcBlock (chachaInput src (BitVec.ofNat 64 (counter0 src + 8 * j + p / 4 % 8))) (Fin.ofNat 16 (p / 4 / 8))).toNat) / 256 ^ (p % 4) % 256

/-- Chunk `j` of the stream. -/
def chunk (src : Bytes) (j : Nat) : Bytes := (List.range 512).map (keyByte src j)

/-- Where the answers to a history of requests come from: `(chunk, start, length)` for every request.  `next` is the number of chunks produced so far, `left` the number of
unused bytes of the last one; a request that does not fit into the rest takes a new chunk and drops the rest. -/
def plan : Nat → Nat → List Nat → List (Nat × Nat × Nat)
  | _, _, [] => []
  | next, left, k :: ks =>
    if k ≤ left then (next - 1, 512 - left, k) :: plan next (left - k) ks
    else (next, 0, k) :: plan (next + 1) (512 - k) ks

/-! ## CTR_DRBG (SP 800-90A, 10.2.1) with a 128-bit counter -/

/-- A 128-bit number as 16 bytes, most significant first. -/
def block16 (x : Nat) : Bytes := (List.range 16).map fun i => x / 256 ^ (15 - i) % 256

/-- Key stream: the encryptions of `V + 1, ..., V + m`. -/
def stream (E : Bytes → Bytes → Bytes) (K : Bytes) (V m : Nat) : Bytes := (List.range m).flatMap fun i => E K (block16 ((V + i + 1) % 2 ^ 128))

/-- Working state: key, counter, number of requests since instantiation. -/
structure Work where
  K : Bytes
  V : Nat
  ctr : Nat
deriving DecidableEq, Repr

def value (b : Bytes) : Nat := b.foldl (fun acc x => acc * 256 + x) 0

/-- CTR_DRBG_Update. -/
def specUpdate (E : Bytes → Bytes → Bytes) (w : Work) (data : Bytes) : Work :=
  let t := List.zipWith (· ^^^ ·) (stream E w.K w.V 3) data
  { w with K := t.take 32, V := value (t.drop 32) }

/-- CTR_DRBG_Generate for `num` bytes; `add` is the 48-byte additional input, `none` if there is none. -/
def specGenerate (E : Bytes → Bytes → Bytes) (w : Work) (num : Nat) (add : Option Bytes) : Bytes × Work :=
  let w := match add with
    | none => w
    | some a => specUpdate E w a
  let m := (num + 15) / 16
  let out := (stream E w.K w.V m).take num
  let w' := specUpdate E { w with V := (w.V + m) % 2 ^ 128 } (add.getD (List.replicate 48 0))
  (out, { w' with ctr := w'.ctr + 1 })

end Verif.Rng
