import Verif.Contract.Model

/-! # Contract storage: `SSTORE2` (`lib/sstore2`), `setKey`, and the storage of `ZKNOX_NTT.sol` -/

namespace Verif.Storage

open Verif Verif.Packing

/-! ## The part of the EVM that runs the creation code -/

/-- Stack, memory and program counter of a frame. -/
structure Frame where
  pc : Nat
  stack : List Nat
  mem : Bytes
deriving Repr, DecidableEq

/-- What one instruction does: go on, end with a result, or fail. -/
inductive Step where
  | next (f : Frame)
  | done (out : Bytes)
  | fail
deriving Repr, DecidableEq

/-- `n` bytes of `b` from `off`, zero beyond the end (EVM reads of code, calldata and memory). -/
def slice (b : Bytes) (off n : Nat) : Bytes := (List.range n).map fun i => b.getD (off + i) 0

/-- Memory after `src` is written at `off` (grown with zeros when needed). -/
def memWrite (mem : Bytes) (off : Nat) (src : Bytes) : Bytes :=
  (List.range (max mem.length (off + src.length))).map fun i => if off ≤ i ∧ i < off + src.length then src.getD (i - off) 0 else mem.getD i 0

/-- One EVM instruction, for the opcodes that occur in the creation code of Bytecode.sol 14-29 (Yellow Paper, appendix H): STOP, CODECOPY, PUSH1, PUSH4, DUP1, RETURN.
Simplified: no gas; every other opcode fails. -/
def step (code : Bytes) (f : Frame) : Step :=
  match code[f.pc]? with
  | none => .done []
  | some op =>
    if op = 0x00 then .done []
    else if op = 0x60 then .next { f with pc := f.pc + 2, stack := Hash.Sol.word (slice code (f.pc + 1) 1) :: f.stack }
    else if op = 0x63 then .next { f with pc := f.pc + 5, stack := Hash.Sol.word (slice code (f.pc + 1) 4) :: f.stack }
    else if op = 0x80 then
      match f.stack with
      | a :: s => .next { f with pc := f.pc + 1, stack := a :: a :: s }
      | _ => .fail
    else if op = 0x39 then
      match f.stack with
      | dst :: src :: n :: s => .next { f with pc := f.pc + 1, stack := s, mem := memWrite f.mem dst (slice code src n) }
      | _ => .fail
    else if op = 0xf3 then
      match f.stack with
      | off :: n :: _ => .done (slice f.mem off n)
      | _ => .fail
    else .fail

/-- Run from a frame; none of the modelled opcodes jumps back, so `code.length + 1` steps suffice. -/
def run (code : Bytes) : Nat → Frame → Option Bytes
  | 0, _ => none
  | fuel + 1, f =>
    match step code f with
    | .next f' => run code fuel f'
    | .done out => some out
    | .fail => none

/-- The code a creation with this init code returns, or `none` on failure. -/
def execInit (init : Bytes) : Option Bytes := run init (init.length + 1) ⟨0, [], []⟩

/-! ## Accounts and `create` -/

/-- The code of every address, and the number of creations so far. -/
structure World where
  code : Nat → Bytes
  nonce : Nat

/-- `MAX_CODE_SIZE` of EIP-170. -/
def maxCodeSize : Nat := 24576
/-- `MAX_INITCODE_SIZE` of EIP-3860. -/
def maxInitSize : Nat := 49152

/-- The `create` opcode with value 0 (SSTORE2.sol 31): returns the new world and the address, 0 on failure.  `addrOf` gives the address of the `k`-th creation
(the hash of creator and nonce).  It fails on too long init code (EIP-3860), on a failing constructor, on code that is too long (EIP-170) or begins with `0xEF` (EIP-3541)
and on an address already holding code.  Simplified: gas, the balance and the call depth never make it fail; the nonce is increased also on failure. -/
def create (addrOf : Nat → Nat) (w : World) (init : Bytes) : World × Nat :=
  let a := addrOf w.nonce
  let w' : World := { w with nonce := w.nonce + 1 }
  if init.length > maxInitSize then (w', 0)
  else if w.code a ≠ [] then (w', 0)
  else match execInit init with
    | none => (w', 0)
    | some out =>
      if out.length > maxCodeSize then (w', 0)
      else if out.head? = some 0xef then (w', 0)
      else ({ w' with code := fun x => if x = a then out else w.code x }, a)

/-! ## The library -/

/-- Big-endian bytes of `x` on `n` bytes. -/
def beBytes (n x : Nat) : Bytes := (List.range n).map fun i => x / 256 ^ (n - 1 - i) % 256

/-- `creationCodeFor`, Bytecode.sol 13-31; the same bytes are built in ZKNOX_falcon_deploy.sol 55-56, 70-71, 82. -/
def creationCodeFor (code : Bytes) : Bytes :=
  [0x63] ++ beBytes 4 (code.length % 2 ^ 32) ++ [0x80, 0x60, 0x0e, 0x60, 0x00, 0x39, 0x60, 0x00, 0xf3] ++ code

/-- `SSTORE2.write`, SSTORE2.sol 20-36.  On a revert the world is unchanged. -/
def write (addrOf : Nat → Nat) (w : World) (data : Bytes) : World × Except Err Nat :=
  let r := create addrOf w (creationCodeFor ([0x00] ++ data))
  if r.2 = 0 then (w, .error (.revert "WriteError")) else (r.1, .ok r.2)

/-- `type(uint256).max`. -/
def maxWord : Nat := W - 1

/-- `codeAt`, Bytecode.sol 51-77, on the code of the address. -/
def codeAt (code : Bytes) (start stop : Nat) : Except Err Bytes :=
  let csize := code.length
  if csize = 0 then .ok []
  else if start > csize then .ok []
  else if stop < start then .error (.revert "InvalidCodeAtRange")
  else
    let reqSize := stop - start
    let maxSize := csize - start
    let size := if maxSize < reqSize then maxSize else reqSize
    .ok (slice code start size)

/-- Checked addition of 0.8 Solidity. -/
def checkedAdd (a b : Nat) : Except Err Nat := if a + b < W then .ok (a + b) else .error (.revert "panic")

/-- `SSTORE2.read(pointer)`, SSTORE2.sol 44-46. -/
def read (w : World) (p : Nat) : Except Err Bytes := codeAt (w.code p) 1 maxWord

/-- `SSTORE2.read(pointer, start)`, SSTORE2.sol 55-57. -/
def readFrom (w : World) (p start : Nat) : Except Err Bytes :=
  match checkedAdd start 1 with
  | .error e => .error e
  | .ok s => codeAt (w.code p) s maxWord

/-- `SSTORE2.read(pointer, start, end)`, SSTORE2.sol 67-69. -/
def readRange (w : World) (p start stop : Nat) : Except Err Bytes :=
  match checkedAdd start 1 with
  | .error e => .error e
  | .ok s =>
    match checkedAdd stop 1 with
    | .error e => .error e
    | .ok t => codeAt (w.code p) s t

/-- `setKey(bytes pubkey)`, ZKNOX_falcon.sol 36-39, ZKNOX_ethfalcon.sol 35-38: `abi.encodePacked` of an address is its 20 bytes. -/
def setKey (addrOf : Nat → Nat) (w : World) (pubkey : Bytes) : World × Except Err Bytes :=
  match write addrOf w pubkey with
  | (w', .error e) => (w', .error e)
  | (w', .ok p) => (w', .ok (beBytes 20 p))

/-- `pkContractAddress := shr(96, calldataload(_pubkey.offset))`, ZKNOX_falcon.sol 82-85: the word at the offset of `_pubkey` in the calldata (zero beyond its end), whatever
the length of `_pubkey`. -/
def keyAddress (calldata : Bytes) (offset : Nat) : Nat := Hash.Sol.word (slice calldata offset 32) >>> 96

/-- `verify(bytes _pubkey, bytes32 _digest, bytes _sig)` with its read of the stored key, ZKNOX_falcon.sol 81-134, ZKNOX_ethfalcon.sol 79-132; `_pubkey` lies at `offset` of `calldata`. -/
def verifyStored (hp : Bytes → Bytes → Nat → Option (List Nat)) (fmp : Nat) (w : World) (calldata : Bytes) (offset : Nat) (digest sig : Bytes) (fuel : Nat) :
    Option (Except Err Bool) :=
  Contract.verifyBytes hp fmp (read w (keyAddress calldata offset)) digest sig fuel

/-! ## The storage of `ZKNOX_NTT.sol` -/

/-- ZKNOX_NTT.sol 53-57. -/
structure NttStore where
  psirev : Nat
  psiInvRev : Nat
  q : Nat
  nm1modq : Nat
  isImmutable : Nat
deriving Repr, DecidableEq

/-- The constructor, ZKNOX_NTT.sol 62-69. -/
def nttConstructor (psirev psiInvRev q nm1modq : Nat) : NttStore := ⟨psirev, psiInvRev, q, nm1modq, 1⟩

/-- The transactions that write the storage, with the sender of each. -/
inductive NttTx where
  | update (sender psirev psiInvRev q nm1modq : Nat)
  | makeImmutable (sender : Nat)
deriving Repr, DecidableEq

/-- `update`, ZKNOX_NTT.sol 71-79, and `make_immutable`, 82-84. -/
def nttTx (s : NttStore) : NttTx → NttStore
  | .update _ a b q nm1 => if s.isImmutable > 0 then { s with q := q, nm1modq := nm1, psirev := a, psiInvRev := b } else s
  | .makeImmutable _ => { s with isImmutable := 1 }

/-- The storage after a history of transactions. -/
def nttRun (s : NttStore) (txs : List NttTx) : NttStore := txs.foldl nttTx s

/-- The stateful `ZKNOX_NTT_HALFMUL`, ZKNOX_NTT.sol 167-169, `codes` the code of each address. -/
def nttHalfMul (codes : Nat → Bytes) (s : NttStore) (a b : List Nat) : Except Err (List Nat) :=
  if a.length ≠ b.length then .error .assertError
  else .ok (NTT.statefulInv s.nm1modq s.q (codes s.psiInvRev) (NTT.vecMul s.q a.length (NTT.statefulFw s.q (codes s.psirev) a) b))

end Verif.Storage
