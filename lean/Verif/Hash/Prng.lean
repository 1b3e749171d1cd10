import Verif.Bits

/-! # The counter-mode PRNGs `pythonref/keccak_prng.py` and `pythonref/blake2s_prng.py`

The two classes differ only in the hash function and in the buffer size (4096 and 1024): both are parameters.  The hash function (`Crypto.Hash.keccak`,
`hashlib.blake2s`) is a black box `H`. -/

namespace Verif.Hash

/-- Fields of `KeccakPRNG`, keccak_prng.py 14-26 (blake2s_prng.py 15-27). -/
structure Prng where
  buffer : Bytes
  state : Bytes
  bufferLen : Nat
  counter : Nat
  finalized : Bool
  outBuf : Bytes
  outPos : Nat
  outLen : Nat
deriving DecidableEq

/-- `__init__` and `new`, keccak_prng.py 15-30. -/
def Prng.new (maxBuf : Nat) : Prng := ⟨List.replicate maxBuf 0, List.replicate 32 0, 0, 0, false, List.replicate 32 0, 0, 0⟩

/-- `inject` (= `update`), keccak_prng.py 32-41, 107-109. -/
def Prng.inject (maxBuf : Nat) (c : Prng) (data : Bytes) : Except Err Prng :=
  if c.finalized then .error .valueError
  else if data.length + c.bufferLen > maxBuf then .error .valueError
  else .ok { c with
    buffer := c.buffer.take c.bufferLen ++ data ++ c.buffer.drop (c.bufferLen + data.length)
    bufferLen := c.bufferLen + data.length }

/-- `flip`, keccak_prng.py 43-57. -/
def Prng.flip (H : Bytes → Bytes) (c : Prng) : Except Err Prng :=
  if c.finalized then .error .valueError
  else .ok { c with state := H (c.buffer.take c.bufferLen), finalized := true, outPos := 0, outLen := 0 }

/-- `struct.pack(">Q", counter)`, keccak_prng.py 86: eight big-endian bytes; values of 64 bits or more raise (`struct.error`). -/
def be64 (c : Nat) : Except Err Bytes :=
  if c < 2 ^ 64 then .ok ((List.range 8).map fun i => c / 256 ^ (7 - i) % 256) else .error .valueError

/-- The loop of `extract`, keccak_prng.py 82-104; every turn delivers at least one byte, so `length` units of fuel suffice. -/
def Prng.extractLoop (H : Bytes → Bytes) (length : Nat) : Nat → Prng → Nat → Bytes → Except Err (Prng × Bytes)
  | 0, c, _, out => .ok (c, out)
  | fuel + 1, c, offset, out =>
    if offset < length then
      match be64 c.counter with
      | .error e => .error e
      | .ok ctr =>
        let ob := H (c.state ++ ctr)
        let toCopy := min (length - offset) 32
        Prng.extractLoop H length fuel { c with outBuf := ob, outLen := 32, outPos := toCopy, counter := c.counter + 1 } (offset + toCopy) (out ++ ob.take toCopy)
    else .ok (c, out)

/-- `extract` (= `read`), keccak_prng.py 59-105, for a length of at least 0. -/
def Prng.extract (H : Bytes → Bytes) (c : Prng) (length : Nat) : Except Err (Prng × Bytes) :=
  if !c.finalized then .error .valueError
  else if c.outLen > c.outPos then
    let toCopy := min length (c.outLen - c.outPos)
    let out := (c.outBuf.drop c.outPos).take toCopy
    let c := { c with outPos := c.outPos + toCopy }
    if toCopy = length then .ok (c, out) else Prng.extractLoop H length length c toCopy out
  else Prng.extractLoop H length length c 0 []

end Verif.Hash
