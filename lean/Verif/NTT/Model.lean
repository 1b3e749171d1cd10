import Verif.Packing.Model
import Verif.NTT.Tables

/-! # The contracts' number theoretic transforms

Models `src/ZKNOX_NTT_falcon.sol`, `src/ZKNOX_NTT.sol` and `src/ZKNOX_falcon_deploy.sol`.
Words are natural numbers (below `2^256` in every reachable state).  Arrays are lists; the functions overwrite
their argument in place, which the model writes as returning the new list. -/

namespace Verif.NTT

open Verif.Packing (W)

/-- EVM `sub`: wraps modulo `2^256`. -/
def subw (a b : Nat) : Nat := (a + (W - b % W)) % W

/-- EVM `addmod`: the sum is not truncated; modulus zero gives zero. -/
def addmod (a b q : Nat) : Nat := if q = 0 then 0 else (a + b) % q

/-- EVM `mulmod`: the product is not truncated; modulus zero gives zero. -/
def mulmod (a b q : Nat) : Nat := if q = 0 then 0 else a * b % q

/-- One forward butterfly, src/ZKNOX_NTT_falcon.sol 71-75 (ZKNOX_NTT.sol 105-112, 201-204, 286-293):
`U = a[j]; V = a[j+t]*S; a[j+t] = U - V; a[j] = U + V` modulo `q`. -/
def fwBfly (q S t : Nat) (a : List Nat) (j : Nat) : List Nat :=
  (a.set (j + t) (addmod a[j]! (subw q (mulmod a[j + t]! S q)) q)).set j (addmod a[j]! (mulmod a[j + t]! S q) q)

/-- Inner loop of the forward transform, NTT_falcon.sol 67-76: `j` runs over `j1 .. j1+t-1`. -/
def fwGroup (q S t j1 : Nat) (a : List Nat) : List Nat :=
  (List.range t).foldl (fun a k => fwBfly q S t a (j1 + k)) a

/-- Middle loop, NTT_falcon.sol 59-77: `i` runs over `0 .. m-1`, `j1 = 2*i*t`, twiddle `psi[m+i]`. -/
def fwStage (psi : Nat → Nat) (q m t : Nat) (a : List Nat) : List Nat :=
  (List.range m).foldl (fun a i => fwGroup q (psi (m + i)) t (2 * i * t) a) a

/-- Outer loop, NTT_falcon.sol 55-79: while `m < n`: halve `t`, run a stage, double `m`.
`fuel` bounds the number of rounds; `m` doubles, so `n` rounds always suffice. -/
def fwLoop (psi : Nat → Nat) (q n : Nat) : Nat → Nat → Nat → List Nat → List Nat
  | 0, _, _, a => a
  | fuel + 1, t, m, a => if m < n then fwLoop psi q n fuel (t / 2) (2 * m) (fwStage psi q m (t / 2) a) else a

/-- The forward transform with table `psi` and size `n`: NTT_falcon.sol 49-81, NTT.sol 87-119, 188-210, 263-295. -/
def nttFw (psi : Nat → Nat) (q n : Nat) (a : List Nat) : List Nat := fwLoop psi q n n n 1 a

/-- One inverse butterfly, NTT_falcon.sol 162-166 (NTT.sol 136-143, 224-227, 315-322):
`U = a[j]; V = a[j+t]; a[j+t] = (U - V)*S; a[j] = U + V`.  `q - V` is an EVM `sub`, which wraps if `V > q`
(in the stateless contract it is a checked subtraction and panics instead; see `Reduced`). -/
def invBfly (q S t : Nat) (a : List Nat) (j : Nat) : List Nat :=
  (a.set (j + t) (mulmod (addmod a[j]! (subw q a[j + t]!) q) S q)).set j (addmod a[j]! a[j + t]! q)

/-- Inner loop of the inverse transform, NTT_falcon.sol 158-167. -/
def invGroup (q S t j1 : Nat) (a : List Nat) : List Nat :=
  (List.range t).foldl (fun a k => invBfly q S t a (j1 + k)) a

/-- Middle loop, NTT_falcon.sol 149-170: the group pointer advances by `2*t` words each time; twiddle `psi[h+i]`. -/
def invStage (psi : Nat → Nat) (q h t : Nat) (a : List Nat) : List Nat :=
  ((List.range h).foldl (fun (st : Nat × List Nat) i => (st.1 + 2 * t, invGroup q (psi (h + i)) t st.1 st.2)) (0, a)).2

/-- Outer loop, NTT_falcon.sol 144-173: while `m > 1`: stage with `h = m/2`, double `t`, halve `m`. -/
def invLoop (psi : Nat → Nat) (q : Nat) : Nat → Nat → Nat → List Nat → List Nat
  | 0, _, _, a => a
  | fuel + 1, t, m, a => if m > 1 then invLoop psi q fuel (2 * t) (m / 2) (invStage psi q (m / 2) t a) else a

/-- The inverse transform with table `psi`, size `n` and final factor `nm1`: NTT_falcon.sol 138-183, NTT.sol 123-164, 213-241, 299-340. -/
def nttInv (psi : Nat → Nat) (q nm1 n : Nat) (a : List Nat) : List Nat :=
  (invLoop psi q n 1 n a).map fun x => mulmod x nm1 q

/-- `_ZKNOX_VECMULMOD`, NTT_falcon.sol 85-100 and NTT.sol 19-26: pointwise product of `n` words. -/
def vecMul (q n : Nat) (a b : List Nat) : List Nat := (List.range n).map fun i => mulmod a[i]! b[i]! q

/-! ## The Falcon-512 instance (`src/ZKNOX_NTT_falcon.sol`) -/

/-- Extraction of a twiddle factor from the compact table, NTT_falcon.sol 61-63, 153-155:
`(word[k >> 4] >> ((k & 0xf) << 4)) & 0xffff`. -/
def chunk (ws : List Nat) (k : Nat) : Nat := (ws[k >>> 4]! >>> ((k &&& 0xf) <<< 4)) &&& 0xffff

/-- `q`, src/ZKNOX_falcon_utils.sol 46. -/
def qF : Nat := 12289

/-- `nm1modq`, src/ZKNOX_falcon_utils.sol 37. -/
def nm1F : Nat := 12265

/-- `_ZKNOX_NTTFW_vectorized`, NTT_falcon.sol 13-82.  Input: 512 words (the code does not read the array length). -/
def fw512 (a : List Nat) : List Nat := nttFw (chunk fwWords) qF 512 a

/-- `_ZKNOX_NTTINV_vectorized`, NTT_falcon.sol 102-184. -/
def inv512 (a : List Nat) : List Nat := nttInv (chunk invWords) qF nm1F 512 a

/-- `_ZKNOX_NTT_HALFMUL_Compact`, NTT_falcon.sol 186-192: the arguments are memory arrays of 32 packed words. -/
def halfMulCompact (a b : Nat → Nat) : List Nat :=
  Packing.solCompact (Packing.asMem (inv512 (vecMul qF 512 (fw512 (Packing.solExpand a)) (Packing.solExpand b))) (fun _ => 0))

/-! ## The general contract (`src/ZKNOX_NTT.sol`) -/

/-- Stateless `ZKNOX_NTTFW(a, q)`, NTT.sol 188-210, table in storage.  A table index of 512 or more panics; for lists of at most 512 words it never does. -/
def statelessFw (q : Nat) (a : List Nat) : List Nat := nttFw (fun k => psiRev[k]!) q a.length a

/-- Stateless `ZKNOX_NTTINV(a, q)`, NTT.sol 213-241; `nm1` is the storage variable `storage_nm1modq`. -/
def statelessInv (nm1 q : Nat) (a : List Nat) : List Nat := nttInv (fun k => psiInvRev[k]!) q nm1 a.length a

/-- `mul_NTTPoly`, NTT.sol 244-246.  The assertion on equal lengths is an `assert` (panic). -/
def mulNTTPoly (nm1 : Nat) (a b : List Nat) (q : Nat) : Except Err (List Nat) :=
  if a.length ≠ b.length then .error .assertError
  else .ok (statelessInv nm1 q (vecMul q a.length (statelessFw q a) (statelessFw q b)))

/-- Stateless `ZKNOX_NTT_HALFMUL`, NTT.sol 249-255. -/
def halfMul (nm1 : Nat) (a b : List Nat) (q : Nat) : Except Err (List Nat) :=
  if a.length ≠ b.length then .error .assertError
  else .ok (statelessInv nm1 q (vecMul q a.length (statelessFw q a) b))

/-- `ZKNOX_VECADDMOD`, NTT.sol 30-37. -/
def vecAdd (a b : List Nat) (q : Nat) : Except Err (List Nat) :=
  if a.length ≠ b.length then .error .assertError
  else .ok ((List.range a.length).map fun i => addmod a[i]! b[i]! q)

/-- `ZKNOX_VECSUBMOD`, NTT.sol 41-48: `q - b[i]` is checked and panics when `b[i] > q`. -/
def vecSub (a b : List Nat) (q : Nat) : Except Err (List Nat) :=
  if a.length ≠ b.length then .error .assertError
  else if (List.range a.length).any (fun i => decide (b[i]! > q)) then .error (.revert "panic")
  else .ok ((List.range a.length).map fun i => addmod a[i]! (q - b[i]!) q)

/-- The word the stateful contract reads, NTT.sol 103 and 134: `extcodecopy(addr, S, 32*k, 32)`, big-endian,
bytes past the end of the code read as zero. -/
def codeWord (code : List Nat) (k : Nat) : Nat :=
  (List.range 32).foldl (fun acc i => acc * 256 + code.getD (32 * k + i) 0) 0

/-- Stateful `ZKNOX_NTTFW(a, apsirev)`, NTT.sol 87-119, 263-295; `code` is the code at the table address. -/
def statefulFw (q : Nat) (code : List Nat) (a : List Nat) : List Nat := nttFw (codeWord code) q a.length a

/-- Stateful `ZKNOX_NTTINV(a, apsiinvrev)`, NTT.sol 123-164, 299-340. -/
def statefulInv (nm1 q : Nat) (code : List Nat) (a : List Nat) : List Nat := nttInv (codeWord code) q nm1 a.length a

/-! ## The deployment script (`src/ZKNOX_falcon_deploy.sol`) -/

/-- `_Swap16`, falcon_deploy.sol 9-15: reverses the sixteen 16-bit chunks of a word. -/
def swap16 (w : Nat) : Nat :=
  (List.range 16).foldl (fun o i => o ^^^ ((((w >>> (240 - 16 * i)) &&& 0xffff) <<< (16 * i)) % W)) 0

/-- `_Compact`, falcon_deploy.sol 17-36: the packing loop of `_ZKNOX_NTT_Compact`, then `_Swap16` on each word. -/
def deployCompact (a : Nat → Nat) : List Nat := (Packing.solCompact a).map swap16

/-- `abi.encodePacked` of an array of words: 32 big-endian bytes per word. -/
def packWords (ws : List Nat) : List Nat :=
  ws.flatMap fun w => (List.range 32).map fun i => (w >>> (8 * (31 - i))) &&& 0xff

/-- The code at the address `a_psirev` returned by `Deploy`, falcon_deploy.sol 46-59: the constructor
`63 <len> 80600E6000396000F3` returns exactly the packed words that follow it. -/
def deployedPsi : List Nat := packWords (deployCompact (fun i => deployPsiRev[i]!))

/-- The code at the address `a_psiInvrev` returned by `Deploy`, falcon_deploy.sol 62-75. -/
def deployedPsiInv : List Nat := packWords (deployCompact (fun i => deployPsiInvRev[i]!))

end Verif.NTT
