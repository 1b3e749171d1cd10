/-! # Keccak-f[1600], FIPS 202 section 3.2-3.3, at lane level

The state is addressed by coordinates `(x, y)` with `x, y < 5` and lanes of 64 bits; `Lane` is a lane-valued function. -/

namespace Verif.Keccak.Spec

abbrev Lane := BitVec 64
/-- `A x y`, coordinates taken modulo 5. -/
abbrev State := Nat → Nat → Lane

/-- θ: `C[x] = ⊕_y A[x,y]`, `D[x] = C[x-1] ⊕ rot(C[x+1], 1)`, `A'[x,y] = A[x,y] ⊕ D[x]`. -/
def theta (A : State) : State :=
  let Cc := fun x => A x 0 ^^^ A x 1 ^^^ A x 2 ^^^ A x 3 ^^^ A x 4
  let D := fun x => Cc ((x + 4) % 5) ^^^ (Cc ((x + 1) % 5)).rotateLeft 1
  fun x y => A x y ^^^ D x

/-- The walk defining the ρ offsets: after `t` steps from `(1, 0)` by `(x, y) ↦ (y, 2x + 3y)`. -/
def rhoWalk : Nat → Nat × Nat
  | 0 => (1, 0)
  | t + 1 => let (x, y) := rhoWalk t; (y, (2 * x + 3 * y) % 5)

/-- ρ offsets: `(t+1)(t+2)/2 mod 64` at the `t`-th point of the walk, 0 at the origin. -/
def rhoOffset (x y : Nat) : Nat :=
  match (List.range 24).find? (fun t => rhoWalk t == (x, y)) with
  | some t => ((t + 1) * (t + 2) / 2) % 64
  | none => 0

/-- ρ -/
def rho (A : State) : State := fun x y => (A x y).rotateLeft (rhoOffset x y)

/-- π: `A'[x,y] = A[(x + 3y) mod 5, x]`. -/
def pi (A : State) : State := fun x y => A ((x + 3 * y) % 5) x

/-- χ: `A'[x,y] = A[x,y] ⊕ (¬A[x+1,y] ∧ A[x+2,y])`. -/
def chi (A : State) : State := fun x y => A x y ^^^ (~~~(A ((x + 1) % 5) y) &&& A ((x + 2) % 5) y)

/-- The LFSR step of algorithm 5 (rc), on an 8-bit register given as a number with bit `i` = `R[i]`:
`R = 0 || R; R[0] ^= R[8]; R[4] ^= R[8]; R[5] ^= R[8]; R[6] ^= R[8]; truncate to 8`. -/
def lfsr (r : Nat) : Nat :=
  let r := 2 * r
  if r.testBit 8 then (r ^^^ 0b101110001) % 256 else r

/-- `rc(t)`: bit 0 of the register after `t` steps from `10000000`. -/
def rcBit (t : Nat) : Bool := ((t % 255).repeat lfsr 1).testBit 0

/-- ι constants: `RC[2^j - 1] = rc(j + 7 ir)` for `j = 0..6`. -/
def RC (ir : Nat) : Lane :=
  (List.range 7).foldl (fun a j => if rcBit (j + 7 * ir) then a ||| (1#64 <<< (2 ^ j - 1)) else a) 0#64

/-- ι -/
def iota (ir : Nat) (A : State) : State := fun x y => if x = 0 ∧ y = 0 then A x y ^^^ RC ir else A x y

/-- One round `ι(χ(π(ρ(θ(A)))), ir)`. -/
def round (ir : Nat) (A : State) : State := iota ir (chi (pi (rho (theta A))))

/-- Keccak-f[1600]: 24 rounds. -/
def f1600 (A : State) : State := (List.range 24).foldl (fun A ir => round ir A) A

/-- Lanes in the order of the byte string: lane `(x, y)` is number `5 y + x`. -/
def lanes (A : State) : List Lane := (List.range 25).map fun i => A (i % 5) (i / 5)

/-- Reading a state from 25 lanes. -/
def ofLanes (l : List Lane) : State := fun x y => l.getD (5 * y + x) 0#64

end Verif.Keccak.Spec

/-! ## The sponge (FIPS 202 section 4) at byte level -/

namespace Verif.Keccak.Spec

/-- 25 lanes from a byte string (missing bytes count as zero): lane `i` is little-endian in bytes `8 i … 8 i + 7`. -/
def bytesToLanes (b : List Nat) : List Lane :=
  (List.range 25).map fun i => BitVec.ofNat 64 ((List.range 8).foldl (fun a k => a + b.getD (8 * i + k) 0 * 256 ^ k) 0)

/-- The byte string of a state. -/
def lanesToBytes (l : List Lane) : List Nat := l.flatMap fun w => (List.range 8).map fun k => w.toNat / 256 ^ k % 256

/-- XOR a block of at most 200 bytes into the state. -/
def inject (s : List Lane) (blk : List Nat) : List Lane := List.zipWith (· ^^^ ·) s (bytesToLanes blk)

/-- `pad10*1` with the domain-separation suffix `ds` already containing the first padding bit, byte-aligned. -/
def pad (ds rate len : Nat) : List Nat :=
  let q := rate - len % rate
  if q = 1 then [ds ^^^ 0x80] else [ds] ++ List.replicate (q - 2) 0 ++ [0x80]

/-- State after absorbing the whole `rate`-byte blocks of `P`. -/
def absorbBlocks (f : List Lane → List Lane) (rate : Nat) (P : List Nat) : List Lane :=
  (List.range (P.length / rate)).foldl (fun s j => f (inject s ((P.drop (rate * j)).take rate))) (List.replicate 25 0#64)

/-- Byte number `k` of the output of the sponge on message `m`. -/
def spongeByte (f : List Lane → List Lane) (rate ds : Nat) (m : List Nat) (k : Nat) : Nat :=
  (lanesToBytes ((k / rate).repeat f (absorbBlocks f rate (m ++ pad ds rate m.length)))).getD (k % rate) 0

/-- Bytes `[a, a + n)` of the output. -/
def spongeOut (f : List Lane → List Lane) (rate ds : Nat) (m : List Nat) (a n : Nat) : List Nat :=
  (List.range n).map fun j => spongeByte f rate ds m (a + j)

/-- Keccak-f[1600] on 25 lanes. -/
def F (l : List Lane) : List Lane := lanes (f1600 (ofLanes l))

/-- SHAKE256: rate 136, suffix `1111` plus first padding bit = 0x1f. -/
def shake256 (m : List Nat) (a n : Nat) : List Nat := spongeOut F 136 0x1f m a n

end Verif.Keccak.Spec
