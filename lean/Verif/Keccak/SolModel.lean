import Verif.Bits

/-! # SHAKE256 in the contract: `src/ZKNOX_shake.sol`

Memory words are naturals (values below `2^256`); EVM `shl` drops bits above 256. -/

namespace Verif.Keccak.Sol

/-- `0xffffffffffffffff`. -/
def mask : Nat := 0xffffffffffffffff

/-- `_keccakPi`, ZKNOX_shake.sol 50. -/
def keccakPi : List Nat := [10, 7, 11, 17, 18, 3, 5, 16, 8, 21, 24, 4, 15, 23, 19, 13, 12, 2, 20, 14, 22, 9, 6, 1]
/-- `_keccakRc`, ZKNOX_shake.sol 51. -/
def keccakRc : List Nat := [0x0000000000000001, 0x0000000000008082,0x800000000000808a,0x8000000080008000,0x000000000000808b, 0x0000000080000001,0x8000000080008081, 0x8000000000008009,0x000000000000008a, 0x0000000000000088,0x0000000080008009, 0x000000008000000a,0x000000008000808b, 0x800000000000008b,0x8000000000008089, 0x8000000000008003,0x8000000000008002, 0x8000000000000080,0x000000000000800a, 0x800000008000000a,0x8000000080008081, 0x8000000000008080, 0x0000000080000001, 0x8000000080008008]
/-- `_keccakRho`, ZKNOX_shake.sol 52. -/
def keccakRho : List Nat := [1, 3, 6, 10, 15, 21, 28, 36, 45, 55, 2, 14, 27, 41, 56, 8, 25, 43, 62, 18, 39, 61, 20, 44]

/-- `mload(add(p, 32 * i))`. -/
def wd (s : List Nat) (i : Nat) : Nat := s.getD i 0

/-- `and(0xffffffffffffffff, xor(shl(s, x), shr(sub(64, s), x)))`, ZKNOX_shake.sol 74, 126. -/
def rotl (x s : Nat) : Nat := mask &&& (((x <<< s) % 2 ^ 256) ^^^ (x >>> (64 - s)))

/-- One column of theta step 2, ZKNOX_shake.sol 72-116: `d = xor(bc[p], rot(bc[q], 1))`, xored into lanes `x, x+5, …, x+20`. -/
def thetaCol (bc : List Nat) (state : List Nat) (x p q : Nat) : List Nat :=
  let d := wd bc p ^^^ rotl (wd bc q) 1
  let state := state.set x (wd state x ^^^ d)
  let state := state.set (x + 5) (wd state (x + 5) ^^^ d)
  let state := state.set (x + 10) (wd state (x + 10) ^^^ d)
  let state := state.set (x + 15) (wd state (x + 15) ^^^ d)
  state.set (x + 20) (wd state (x + 20) ^^^ d)

/-- One unrolled row of chi without the round constant, ZKNOX_shake.sol 150-206. -/
def chiRow (state : List Nat) (o : Nat) : List Nat :=
  let c0 := wd state o
  let c1 := wd state (o + 1)
  let c2 := wd state (o + 2)
  let c3 := wd state (o + 3)
  let c4 := wd state (o + 4)
  let state := state.set o (c0 ^^^ ((c1 ^^^ mask) &&& c2))
  let state := state.set (o + 1) (c1 ^^^ ((c2 ^^^ mask) &&& c3))
  let state := state.set (o + 2) (c2 ^^^ ((c3 ^^^ mask) &&& c4))
  let state := state.set (o + 3) (c3 ^^^ ((c4 ^^^ mask) &&& c0))
  state.set (o + 4) (c4 ^^^ ((c0 ^^^ mask) &&& c1))

/-- The first row of chi, with the round constant, ZKNOX_shake.sol 134-146. -/
def chiRow0 (rc : Nat) (state : List Nat) : List Nat :=
  let c0 := wd state 0
  let c1 := wd state 1
  let c2 := wd state 2
  let c3 := wd state 3
  let c4 := wd state 4
  let state := state.set 0 (((c0 ^^^ ((c1 ^^^ mask) &&& c2)) ^^^ rc) &&& mask)
  let state := state.set 1 (c1 ^^^ ((c2 ^^^ mask) &&& c3))
  let state := state.set 2 (c2 ^^^ ((c3 ^^^ mask) &&& c4))
  let state := state.set 3 (c3 ^^^ ((c4 ^^^ mask) &&& c0))
  state.set 4 (c4 ^^^ ((c0 ^^^ mask) &&& c1))

/-- One iteration of the round loop, ZKNOX_shake.sol 57-208. -/
def round (rc : Nat) (state : List Nat) : List Nat :=
  -- theta step 1, lines 62-69
  let bc := (List.range 5).map fun x => wd state x ^^^ wd state (x + 5) ^^^ wd state (x + 10) ^^^ wd state (x + 15) ^^^ wd state (x + 20)
  -- theta step 2, lines 72-116
  let state := thetaCol bc state 0 4 1
  let state := thetaCol bc state 1 0 2
  let state := thetaCol bc state 2 1 3
  let state := thetaCol bc state 3 2 4
  let state := thetaCol bc state 4 3 0
  -- rho and pi, lines 119-128
  let state := ((List.range 24).foldl (fun (st : List Nat × Nat) x =>
    let b := wd st.1 (wd keccakPi x)
    (st.1.set (wd keccakPi x) (rotl st.2 (wd keccakRho x)), b)) (state, wd state 1)).1
  -- chi, lines 131-206
  let state := chiRow0 rc state
  let state := chiRow state 5
  let state := chiRow state 10
  let state := chiRow state 15
  chiRow state 20

/-- `f1600`, ZKNOX_shake.sol 48-211. -/
def f1600 (state : List Nat) : List Nat :=
  (List.range 24).foldl (fun state i => round (wd keccakRc i) state) state

/-- `CtxShake`, ZKNOX_shake.sol 20-25 (`direction`: false = absorbing). -/
structure Ctx where
  state : List Nat
  buff : Bytes
  i : Nat
  direction : Bool
deriving DecidableEq

/-- `shakeInit`, ZKNOX_shake.sol 253-259; also the zero value of a memory struct (`CtxShake memory ctx;`, ZKNOX_HashToPoint.sol 81). -/
def Ctx.init : Ctx := ⟨List.replicate 25 0, List.replicate 200 0, 0, false⟩

/-- Word `w` of the buffer, ZKNOX_shake.sol 328-336. -/
def bufWord (buf : Bytes) (w : Nat) : Nat :=
  let b := fun k => wd buf (8 * w + k)
  let val := b 0
  let val := val ||| (b 1) <<< 8 % 2 ^ 256
  let val := val ||| (b 2) <<< 16 % 2 ^ 256
  let val := val ||| (b 3) <<< 24 % 2 ^ 256
  let val := val ||| (b 4) <<< 32 % 2 ^ 256
  let val := val ||| (b 5) <<< 40 % 2 ^ 256
  let val := val ||| (b 6) <<< 48 % 2 ^ 256
  let val := val ||| (b 7) <<< 56 % 2 ^ 256
  val &&& mask

/-- `shakePermute`, ZKNOX_shake.sol 317-344.  The returned `buffer` is the named return variable that is never assigned: 200 zeros. -/
def shakePermute (buf : Bytes) (state : List Nat) : Bytes × List Nat :=
  (List.replicate 200 0, f1600 ((List.range 25).foldl (fun s w => s.set w (wd s w ^^^ bufWord buf w)) state))

/-- The inner loop of `shakeAbsorb`, ZKNOX_shake.sol 234-236. -/
def xorLoop (buf : Bytes) (i : Nat) (input : Bytes) (index w : Nat) : Bytes :=
  (List.range w).foldl (fun buf j => buf.set (i + j) (wd buf (i + j) ^^^ wd input (index + j))) buf

/-- The loop of `shakeAbsorb`, ZKNOX_shake.sol 230-245; `fuel` ≥ `todo` is enough. -/
def absorbLoop (input : Bytes) : Nat → Nat → Bytes → List Nat → Nat → Nat → Nat × Bytes × List Nat
  | 0, i, buf, state, _, _ => (i, buf, state)
  | fuel + 1, i, buf, state, todo, index =>
    if todo = 0 then (i, buf, state)
    else
      let cando := 136 - i
      let willabsorb := if cando < todo then cando else todo
      let buf := xorLoop buf i input index willabsorb
      let i := i + willabsorb
      if i = 136 then
        let (buf, state) := shakePermute buf state
        absorbLoop input fuel 0 buf state (todo - willabsorb) (index + willabsorb)
      else absorbLoop input fuel i buf state (todo - willabsorb) (index + willabsorb)

/-- `shakeAbsorb`, ZKNOX_shake.sol 222-248. -/
def shakeAbsorb (i : Nat) (buf : Bytes) (state : List Nat) (input : Bytes) : Nat × Bytes × List Nat :=
  absorbLoop input input.length i buf state input.length 0

/-- `shakeUpdate`, ZKNOX_shake.sol 266-273. -/
def shakeUpdate (ctx : Ctx) (input : Bytes) : Ctx :=
  let ctx := if ctx.direction then
      let (b, s) := shakePermute ctx.buff ctx.state
      { ctx with buff := b, state := s }
    else ctx
  let (i, b, s) := shakeAbsorb ctx.i ctx.buff ctx.state input
  ⟨s, b, i, false⟩

/-- Byte `read` of the state, ZKNOX_shake.sol 293. -/
def stateByte (state : List Nat) (read : Nat) : Nat := ((wd state (read >>> 3)) >>> ((read &&& 7) <<< 3)) &&& 0xff

/-- The loop of `shakeSqueeze`, ZKNOX_shake.sol 287-302 (output built left to right). -/
def squeezeLoop : Nat → Ctx → Nat → Bytes → Ctx × Bytes
  | 0, ctx, _, out => (ctx, out)
  | fuel + 1, ctx, tosqueeze, out =>
    if tosqueeze = 0 then (ctx, out)
    else
      let cansqueeze := 136 - ctx.i
      let w := if cansqueeze < tosqueeze then cansqueeze else tosqueeze
      let out := out ++ (List.range w).map fun j => stateByte ctx.state (ctx.i + j)
      let ctx := { ctx with i := ctx.i + w }
      let ctx := if ctx.i = 136 then
          let (b, s) := shakePermute ctx.buff ctx.state
          { ctx with buff := b, state := s, i := 0 }
        else ctx
      squeezeLoop fuel ctx (tosqueeze - w) out

/-- `shakeSqueeze`, ZKNOX_shake.sol 281-306. -/
def shakeSqueeze (ctx : Ctx) (n : Nat) : Ctx × Bytes := squeezeLoop n ctx n []

/-- `shakePad`, ZKNOX_shake.sol 350-358. -/
def shakePad (ctx : Ctx) : Ctx :=
  let buff := ctx.buff.set ctx.i (wd ctx.buff ctx.i ^^^ 0x1f)
  let buff := buff.set (136 - 1) (wd buff (136 - 1) ^^^ 0x80)
  let (b, s) := shakePermute buff ctx.state
  { ctx with buff := b, state := s, i := 0 }

/-- `shakeDigest`, ZKNOX_shake.sol 365-375. -/
def shakeDigest (ctx : Ctx) (size8 : Nat) : Bytes :=
  let ctx := if ctx.direction = false then shakePad ctx else ctx
  (shakeSqueeze ctx size8).2

end Verif.Keccak.Sol
