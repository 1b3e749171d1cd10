import Mathlib.Data.Fin.Basic
import Verif.Bits

/-! # AES-256 encryption as in FIPS 197, independent of the model

Bytes are naturals below 256.  No table is used: the S-box is the inverse in GF(2^8) followed by the affine map, and MixColumns multiplies in GF(2^8). -/

namespace Verif.CRef.Aes.Spec

/-- Multiplication by `x` in GF(2)[x] modulo x^8 + x^4 + x^3 + x + 1 (FIPS 197, 4.2.1). -/
def xtime (b : Nat) : Nat := if b < 128 then 2 * b else (2 * b - 256) ^^^ 0x1B

/-- Multiplication in GF(2^8) (4.2): the sum of `a * x^i` over the bits of `b`. -/
def gmul (a b : Nat) : Nat :=
  let step (s : Nat × Nat) (i : Nat) : Nat × Nat := (if b.testBit i then s.1 ^^^ s.2 else s.1, xtime s.2)
  ((List.range 8).foldl step (0, a)).1

/-- The inverse: `x^254 = x^2 * x^4 * x^8 * x^16 * x^32 * x^64 * x^128`, so 0 for 0. -/
def inv (x : Nat) : Nat :=
  let x2 := gmul x x
  let x4 := gmul x2 x2
  let x8 := gmul x4 x4
  let x16 := gmul x8 x8
  let x32 := gmul x16 x16
  let x64 := gmul x32 x32
  gmul (gmul (gmul x2 x4) (gmul x8 x16)) (gmul (gmul x32 x64) (gmul x64 x64))

/-- The affine map of the S-box (5.1.1): bit `i` is `b_i + b_(i+4) + b_(i+5) + b_(i+6) + b_(i+7) + c_i`, indices modulo 8, `c = 0x63`. -/
def affine (b : Nat) : Nat :=
  (List.range 8).foldl (fun acc i =>
    acc + 2 ^ i * ((b / 2 ^ i + b / 2 ^ ((i + 4) % 8) + b / 2 ^ ((i + 5) % 8) + b / 2 ^ ((i + 6) % 8) + b / 2 ^ ((i + 7) % 8) + 0x63 / 2 ^ i) % 2)) 0

def sbox (x : Nat) : Nat := affine (inv x)

/-- A word: four bytes. -/
abbrev Word := Fin 4 → Nat

def xorWord (a b : Word) : Word := fun r => a r ^^^ b r
def subWord (a : Word) : Word := fun r => sbox (a r)
def rotWord (a : Word) : Word := fun r => a (r + 1)

/-- `Rcon[i]`, 5.2: `x^(i-1)` and three zero bytes. -/
def rcon (i : Nat) : Word := fun r => if r = 0 then xtime^[i - 1] 1 else 0

/-- KeyExpansion with `Nk = 8` (5.2). -/
def keyWord (key : Bytes) (i : Nat) : Word :=
  if h : i < 8 then fun r => key.getD (4 * i + r) 0
  else
    let temp := keyWord key (i - 1)
    let temp :=
      if i % 8 = 0 then xorWord (subWord (rotWord temp)) (rcon (i / 8))
      else if i % 8 = 4 then subWord temp
      else temp
    xorWord (keyWord key (i - 8)) temp
termination_by i

/-- The state: rows and columns. -/
abbrev State := Fin 4 → Fin 4 → Nat

def subBytes (s : State) : State := fun r c => sbox (s r c)
/-- Row `r` rotates by `r` (5.1.2; addition in `Fin 4` is modulo 4). -/
def shiftRows (s : State) : State := fun r c => s r (c + r)
def mixColumns (s : State) : State := fun r c => gmul 2 (s r c) ^^^ gmul 3 (s (r + 1) c) ^^^ s (r + 2) c ^^^ s (r + 3) c
def addRoundKey (w : Nat → Word) (round : Nat) (s : State) : State := fun r c => s r c ^^^ w (4 * round + c) r

/-- The state after the first key addition and `k` full rounds. -/
def rounds (w : Nat → Word) (s : State) : Nat → State
  | 0 => addRoundKey w 0 s
  | k + 1 => addRoundKey w (k + 1) (mixColumns (shiftRows (subBytes (rounds w s k))))

/-- Cipher (5.1) with `Nr = 14`. -/
def cipherState (w : Nat → Word) (s : State) : State := addRoundKey w 14 (shiftRows (subBytes (rounds w s 13)))

/-- Input and output bytes (3.4): `s[r, c] = in[r + 4c]`. -/
def cipher (key block : Bytes) : Bytes :=
  let out := cipherState (keyWord key) fun r c => block.getD (r + 4 * c) 0
  (List.finRange 4).flatMap fun c => (List.finRange 4).map fun r => out r c

end Verif.CRef.Aes.Spec
