import Verif.Bits
import Verif.Keccak.Spec
import Verif.Hash.Prng

/-! # `falcon/nistfalcon/src/keccak256.c`, `keccak_prng.c` and the hash-to-point loop of `common.c`

`uint64_t` is `BitVec 64`; bytes are naturals below 256.  Little-endian machine (`le2me_64` is the identity, keccak256.c 33). -/

namespace Verif.CRef

open Verif.Keccak.Spec (Lane bytesToLanes lanesToBytes)
open Verif.Hash (Prng)

/-- `constants`, keccak256.c 41-119. -/
def constants : List Nat :=
  [1, 26, 94, 112, 31, 33, 121, 85, 14, 12, 53, 38, 63, 79, 93, 83, 82, 72, 22, 102, 121, 88, 33, 116,
   1, 6, 9, 22, 14, 20, 2, 12, 13, 19, 23, 15, 4, 24, 21, 8, 16, 5, 3, 18, 17, 11, 7, 10,
   1, 62, 28, 27, 36, 44, 6, 55, 20, 3, 10, 43, 25, 39, 41, 45, 15, 21, 8, 18, 2, 61, 56, 14]

/-- `getConstant`, keccak256.c 127-131. -/
def getConstant (type index : Nat) : Nat := constants.getD (type + index) 0

/-- `ROTL64`, keccak256.c 32. -/
def rotl64 (x : Lane) (n : Nat) : Lane := (x <<< n) ^^^ (x >>> (64 - n))

/-- `get_round_constant`, keccak256.c 133-169. -/
def getRoundConstant (round : Nat) : Lane :=
  let info := getConstant 0 round
  [(6, 63), (5, 31), (4, 15), (3, 7), (2, 3), (1, 1), (0, 0)].foldl
    (fun (r : Lane) (p : Nat × Nat) => if info &&& (1 <<< p.1) ≠ 0 then r ||| ((1#64) <<< p.2) else r) 0#64

/-- `A[i]`. -/
def lane (A : List Lane) (i : Nat) : Lane := A.getD i 0#64

/-- `keccak_theta`, keccak256.c 180-206. -/
def kTheta (A : List Lane) : List Lane :=
  let C := (List.range 5).map fun i => [5, 10, 15, 20].foldl (fun c j => c ^^^ lane A (i + j)) (lane A i)
  let D := (List.range 5).map fun i => rotl64 (lane C ((i + 1) % 5)) 1 ^^^ lane C ((i + 4) % 5)
  (List.range 5).foldl (fun A i => [0, 5, 10, 15, 20].foldl (fun A j => A.set (i + j) (lane A (i + j) ^^^ lane D i)) A) A

/-- The `rho` loop, keccak256.c 248-253. -/
def kRho (A : List Lane) : List Lane :=
  (List.range' 1 24).foldl (fun A i => A.set i (rotl64 (lane A i) (getConstant 48 (i - 1)))) A

/-- `keccak_pi`, keccak256.c 209-220. -/
def kPi (A : List Lane) : List Lane :=
  let A1 := lane A 1
  let A := (List.range' 1 23).foldl (fun A i => A.set (getConstant 24 (i - 1)) (lane A (getConstant 24 i))) A
  A.set 10 A1

/-- One row of `keccak_chi`, keccak256.c 232-237. -/
def chiRow (A : List Lane) (i : Nat) : List Lane :=
  let A0 := lane A i
  let A1 := lane A (1 + i)
  let A := A.set i (lane A i ^^^ (~~~A1 &&& lane A (2 + i)))
  let A := A.set (1 + i) (lane A (1 + i) ^^^ (~~~(lane A (2 + i)) &&& lane A (3 + i)))
  let A := A.set (2 + i) (lane A (2 + i) ^^^ (~~~(lane A (3 + i)) &&& lane A (4 + i)))
  let A := A.set (3 + i) (lane A (3 + i) ^^^ (~~~(lane A (4 + i)) &&& A0))
  A.set (4 + i) (lane A (4 + i) ^^^ (~~~A0 &&& A1))

/-- `keccak_chi`, keccak256.c 228-239. -/
def kChi (A : List Lane) : List Lane := [0, 5, 10, 15, 20].foldl chiRow A

/-- One round of `sha3_permutation`, keccak256.c 246-259. -/
def kRound (A : List Lane) (round : Nat) : List Lane :=
  let A := kChi (kPi (kRho (kTheta A)))
  A.set 0 (lane A 0 ^^^ getRoundConstant round)

/-- `sha3_permutation`, keccak256.c 241-261. -/
def sha3Permutation (A : List Lane) : List Lane := (List.range 24).foldl kRound A

/-- `sha3_process_block`, keccak256.c 270-279: the 17 words of a block of 136 bytes. -/
def processBlock (hash : List Lane) (block : Bytes) : List Lane :=
  sha3Permutation ((List.range 17).foldl (fun h i => h.set i (lane h i ^^^ lane (bytesToLanes block) i)) hash)

/-- `SHA3_CTX`, keccak256.h 30-39; the message buffer as its 192 bytes. -/
structure Sha3 where
  hash : List Lane
  message : Bytes
  rest : Nat
deriving DecidableEq

/-- `keccak_init`, keccak256.c 172-177. -/
def keccakInit : Sha3 := ⟨List.replicate 25 0#64, List.replicate 192 0, 0⟩

/-- `memcpy` of `d` to offset `off` of a buffer. -/
def blit (buf : Bytes) (off : Nat) (d : Bytes) : Bytes := buf.take off ++ d ++ buf.drop (off + d.length)

/-- The `while` loop of `keccak_update`, keccak256.c 313-330, and the saving of the leftovers, 332-335; `fuel` exceeds the number of blocks.
`aligned` is the outcome of `IS_ALIGNED_64(msg)` (the same in every turn: a block has 136 = 17 * 8 bytes); an unaligned block is copied through the message buffer. -/
def updateLoop (aligned : Bool) : Nat → Sha3 → Bytes → Sha3
  | 0, c, _ => c
  | fuel + 1, c, msg =>
    if msg.length ≥ 136 then
      let message := if aligned then c.message else blit c.message 0 (msg.take 136)
      let block := if aligned then msg.take 136 else message
      updateLoop aligned fuel { c with hash := processBlock c.hash block, message := message } (msg.drop 136)
    else if msg.length ≠ 0 then { c with message := blit c.message 0 msg } else c

/-- `keccak_update`, keccak256.c 292-336; the size is a `uint16_t`; `aligned`: the message pointer at the start of the loop is a multiple of 8. -/
def keccakUpdate (aligned : Bool) (c : Sha3) (msg : Bytes) : Sha3 :=
  let size := msg.length % 65536
  let msg := msg.take size
  let idx := c.rest
  let c := { c with rest := (c.rest + size) % 136 }
  if idx ≠ 0 then
    let left := 136 - idx
    let c := { c with message := blit c.message idx (msg.take (if size < left then size else left)) }
    if size < left then c
    else updateLoop aligned (size + 1) { c with hash := processBlock c.hash c.message } (msg.drop left)
  else updateLoop aligned (size + 1) c msg

/-- `keccak_final`, keccak256.c 344-362: 32 bytes of the state. -/
def keccakFinal (c : Sha3) : Bytes :=
  let message := blit c.message c.rest (List.replicate (136 - c.rest) 0)
  let message := message.modify c.rest (· ||| 0x01)
  let message := message.modify 135 (· ||| 0x80)
  (lanesToBytes (processBlock c.hash message)).take 32

/-- The sequence `keccak_init; keccak_update; keccak_final`, keccak_prng.c 92-95 and 150-152. -/
def keccak256 (aligned : Bool) (m : Bytes) : Bytes := keccakFinal (keccakUpdate aligned keccakInit m)

/-! ## `keccak_prng.c`

The context has the fields of the Python class; a C function returns its code and the new context.  Null pointers are not modelled. -/

/-- `i_keccak256_init`, keccak_prng.c 42-58. -/
def prngInit : Prng := Prng.new 4096

/-- `i_keccak256_inject`, keccak_prng.c 63-80. -/
def prngInject (c : Prng) (data : Bytes) : Int × Prng :=
  if c.finalized then (-2, c)
  else if c.bufferLen + data.length > 4096 then (-3, c)
  else (0, { c with buffer := blit c.buffer c.bufferLen data, bufferLen := c.bufferLen + data.length })

/-- `i_keccak256_flip`, keccak_prng.c 85-104. -/
def prngFlip (c : Prng) : Int × Prng :=
  if c.finalized then (-2, c)
  else (0, { c with state := keccak256 true (c.buffer.take c.bufferLen), finalized := true, outPos := 0, outLen := 0 })

/-- The eight counter bytes, keccak_prng.c 144-147. -/
def counterBytes (counter : Nat) : Bytes := (List.range 8).map fun i => (counter >>> (56 - i * 8)) &&& 0xFF

/-- The loop of `i_keccak256_extract`, keccak_prng.c 139-167; each turn delivers at least one byte. -/
def prngExtractLoop (len : Nat) : Nat → Prng → Nat → Bytes → Prng × Bytes
  | 0, c, _, out => (c, out)
  | fuel + 1, c, offset, out =>
    if offset < len then
      let block := c.state ++ counterBytes c.counter
      let ob := keccak256 true block
      let remaining := len - offset
      let toCopy := if remaining < 32 then remaining else 32
      prngExtractLoop len fuel { c with outBuf := ob, outLen := 32, outPos := toCopy, counter := (c.counter + 1) % 2 ^ 64 } (offset + toCopy) (out ++ ob.take toCopy)
    else (c, out)

/-- `i_keccak256_extract`, keccak_prng.c 109-170.  With a return code other than 0 nothing is written: the output is given as empty. -/
def prngExtract (c : Prng) (len : Nat) : Int × Prng × Bytes :=
  if !c.finalized then (-2, c, [])
  else if c.outLen > c.outPos then
    let available := c.outLen - c.outPos
    let toCopy := if len < available then len else available
    let out := (c.outBuf.drop c.outPos).take toCopy
    let c := { c with outPos := c.outPos + toCopy }
    if toCopy = len then (0, c, out) else (0, prngExtractLoop len len c toCopy out)
  else (0, prngExtractLoop len len c 0 [])

/-! ## `hash_to_point_vartime` and `keccak_hash_to_point_vartime` -/

/-- The reduction loop, common.c 61-64 and 97-100: for `w < 61445` at most four subtractions. -/
def reduceWord : Nat → Nat → Nat
  | 0, w => w
  | fuel + 1, w => if w ≥ 12289 then reduceWord fuel (w - 12289) else w

/-- The loop of `hash_to_point_vartime`, common.c 52-68, and of `keccak_hash_to_point_vartime`, common.c 88-104: `read` gives the two bytes; `left` values are
missing; `none` when `fuel` turns were not enough. -/
def pointLoop {S : Type} (read : S → S × Bytes) : Nat → S → Nat → List Nat → Option (List Nat)
  | 0, _, _, _ => none
  | fuel + 1, s, left, x =>
    if left > 0 then
      let (s, buf) := read s
      let w := (buf.getD 0 0 <<< 8) ||| buf.getD 1 0
      if w < 61445 then pointLoop read fuel s (left - 1) (x ++ [reduceWord 5 w]) else pointLoop read fuel s left x
    else some x

/-- `keccak_hash_to_point_vartime`, common.c 72-105. -/
def keccakHashToPoint (c : Prng) (logn fuel : Nat) : Option (List Nat) :=
  pointLoop (fun c => (prngExtract c 2).2) fuel c (2 ^ logn) []

end Verif.CRef
