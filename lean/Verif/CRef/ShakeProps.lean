import Verif.CRef.ShakeSponge
import Verif.CRef.KeccakProps

/-! # Property C86: the SHAKE256 of the C reference code -/

namespace Verif.CRef

open Verif.Keccak.Spec (Lane F)
open Verif.Hash (IsPoint shakeByte)

/-- `inner_shake256_init`, one `inner_shake256_inject` for each piece, `inner_shake256_flip`. -/
def shakeFlipped (pieces : List Bytes) : Shake.Ctx := Shake.flip (pieces.foldl Shake.inject Shake.init)

/-- The results of successive `inner_shake256_extract` calls. -/
def shakeReads : Shake.Ctx → List Nat → List Bytes
  | _, [] => []
  | c, n :: ns => (Shake.extract c n).2 :: shakeReads (Shake.extract c n).1 ns

/-- **C86**: the optimised two-rounds-per-turn `process_block` is Keccak-f[1600] of FIPS 202 on every state. -/
theorem C86_permutation (l : List Lane) (h : l.length = 25) : Shake.processBlock l = Keccak.Spec.lanes (Keccak.Spec.f1600 (Keccak.Spec.ofLanes l)) :=
  Shake.processBlock_eq l h

attribute [local irreducible] Keccak.Spec.F Shake.processBlock

theorem inject_pieces (pieces : List Bytes) (h : ∀ p ∈ pieces, IsBytes p) (c : Shake.Ctx) (k : Keccak.Ctx) (hs : Shake.Sim c k) :
    Shake.Sim (pieces.foldl Shake.inject c) (Keccak.absorb F 136 k pieces.flatten) := by
  induction pieces generalizing c k with
  | nil => exact hs
  | cons p ps ih =>
    rw [List.foldl_cons, List.flatten_cons, ← Keccak.absorb_append _ _ _ hs.small]
    exact ih (fun q hq => h q (by simp [hq])) _ _ (Shake.inject_sim _ _ _ hs (h p (by simp)))

/-- The state after padding. -/
def shakeState (m : Bytes) : List Lane := Keccak.Spec.absorbBlocks F 136 (m ++ Keccak.Spec.pad 0x1f 136 m.length)

theorem shakeState_len (m : Bytes) : (shakeState m).length = 25 := absorbed_len _

theorem flipped_at (pieces : List Bytes) (h : ∀ p ∈ pieces, IsBytes p) : Shake.At (shakeState pieces.flatten) 0 (shakeFlipped pieces) := by
  have := Shake.flip_at _ _ (inject_pieces pieces h _ _ Shake.sim_init)
  rw [Keccak.pad_absorb (by decide) (by decide)] at this
  exact this

theorem extract_at (m : Bytes) (k n : Nat) (c : Shake.Ctx) (hc : Shake.At (shakeState m) k c) :
    (Shake.extract c n).2 = Keccak.Spec.shake256 m k n ∧ Shake.At (shakeState m) (k + n) (Shake.extract c n).1 := by
  obtain ⟨c', h1, h2⟩ := Shake.extractLoop_ok _ (shakeState_len m) n k n c [] (Nat.le_refl _) hc
  unfold Shake.extract
  rw [h1]
  exact ⟨rfl, h2⟩

/-- **C86**: however the input bytes are cut into `inject` calls and the output into `extract` calls, the bytes are those of SHAKE256 of the whole input. -/
theorem C86_stream (pieces : List Bytes) (h : ∀ p ∈ pieces, IsBytes p) (ns : List Nat) :
    shakeReads (shakeFlipped pieces) ns = Keccak.slices (Keccak.Spec.shake256 pieces.flatten) 0 ns := by
  have key : ∀ (ns : List Nat) (k : Nat) (c : Shake.Ctx), Shake.At (shakeState pieces.flatten) k c →
      shakeReads c ns = Keccak.slices (Keccak.Spec.shake256 pieces.flatten) k ns := by
    intro ns
    induction ns with
    | nil => intro _ _ _; rfl
    | cons n ns ih =>
      intro k c hc
      obtain ⟨e1, e2⟩ := extract_at _ k n c hc
      unfold shakeReads Keccak.slices
      rw [e1, ih _ _ e2]
  exact key ns 0 _ (flipped_at pieces h)

theorem shakeByte_lt (m : Bytes) (k : Nat) : shakeByte m k < 256 := by
  unfold shakeByte Keccak.Spec.spongeByte
  have hl : (Keccak.Spec.absorbBlocks F 136 (m ++ Keccak.Spec.pad 0x1f 136 m.length)).length = 25 := absorbed_len _
  have := Keccak.repeat_length (f := F) (fun l _ => F_length l) _ hl (k / 136)
  rw [Keccak.lanesToBytes_getD _ _ (by omega)]
  exact Nat.mod_lt _ (by decide)

theorem reads_shake (m : Bytes) : Reads (fun c => Shake.extract c 2) (shakeByte m) (Shake.At (shakeState m)) := by
  constructor
  · intro k s hs
    obtain ⟨e1, e2⟩ := extract_at m k 2 s hs
    exact ⟨e1, e2⟩
  · exact shakeByte_lt m

/-- `hash_to_point_vartime` on a context into which `pieces` were injected returns `out`. -/
def ShakePointReturns (logn : Nat) (pieces : List Bytes) (out : List Nat) : Prop := ∃ fuel, shakeHashToPoint (shakeFlipped pieces) logn fuel = some out

/-- **C86**: `hash_to_point_vartime` returns `out` exactly when `out` is the point of the SHAKE256 stream. -/
theorem C86_hash_to_point (logn : Nat) (pieces : List Bytes) (h : ∀ p ∈ pieces, IsBytes p) (out : List Nat) :
    ShakePointReturns logn pieces out ↔ IsPoint (shakeByte pieces.flatten) (2 ^ logn) out :=
  pointLoop_iff (reads_shake _) _ (flipped_at pieces h) _ _

/-- **C86**: C and Python hash every salt and message to the same point, in every dimension. -/
theorem C86_python (logn : Nat) (salt message : Bytes) (hs : IsBytes salt) (hm : IsBytes message) (out : List Nat) :
    ShakePointReturns logn [salt, message] out ↔ Hash.Returns Hash.shakeXof (2 ^ logn) message salt out := by
  rw [C86_hash_to_point _ _ (by intro p hp; simp only [List.mem_cons, List.not_mem_nil, or_false] at hp; rcases hp with rfl | rfl <;> assumption), Hash.C22_shake]
  simp

/-- **C86**: C and the contract's `hashToPointNIST` hash every salt and message to the same point. -/
theorem C86_contract (salt message : Bytes) (hs : IsBytes salt) (hm : IsBytes message) (out : List Nat) :
    ShakePointReturns 9 [salt, message] out ↔ Hash.NistReturns salt message out := by
  rw [C86_python 9 _ _ hs hm]
  exact Hash.C24_nist salt message hs hm out

/-! ## Instances -/

example : ∀ p ∈ ([[1, 2, 3], List.replicate 300 7] : List Bytes), IsBytes p := by decide +kernel

set_option maxRecDepth 100000 in
/-- SHAKE256 of the empty string begins with 46 b9 dd 2b. -/
example : (Shake.extract (shakeFlipped []) 4).2 = [0x46, 0xb9, 0xdd, 0x2b] := by decide +kernel

end Verif.CRef
