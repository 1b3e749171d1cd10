import Verif.Keccak.SolSponge

/-! # Properties C42 and C43 -/

namespace Verif.Keccak

/-! ## C42 -/

/-- C42, Python: `F1600` is the FIPS 202 permutation on every 1600-bit state. -/
theorem C42_python (l : List Lane) (h : l.length = 25) : F1600 l = Spec.lanes (Spec.f1600 (Spec.ofLanes l)) := F1600_spec l h

/-- C42, contract: `f1600` on the 64-bit lane values is the FIPS 202 permutation. -/
theorem C42_contract (l : List Lane) (h : l.length = 25) :
    Sol.f1600 (l.map BitVec.toNat) = (Spec.lanes (Spec.f1600 (Spec.ofLanes l))).map BitVec.toNat := sol_f1600_spec l h

/-- C42: both compute the same function. -/
theorem C42_agree (l : List Lane) (h : l.length = 25) : Sol.f1600 (l.map BitVec.toNat) = (F1600 l).map BitVec.toNat := sol_f1600_eq l h

example : (List.replicate 25 0#64).length = 25 := by decide

attribute [local irreducible] F1600 Sol.f1600 Spec.F Spec.f1600

/-! ## C43 -/

/-- Calls `SHAKE.new(); update(c) for c in chunks; flip()`. -/
def pyFlipped (rate ds : Nat) (chunks : List Bytes) : Ctx := pad F1600 rate ds (chunks.foldl (absorb F1600 rate) Ctx.new)

/-- `[read(n) for n in ns]`. -/
def pyReads (rate : Nat) : Ctx → List Nat → List Bytes
  | _, [] => []
  | c, n :: ns => (squeeze F1600 rate c n).2 :: pyReads rate (squeeze F1600 rate c n).1 ns

/-- `shakeInit`, then `shakeUpdate` with every chunk, then `shakePad`. -/
def solFlipped (chunks : List Bytes) : Sol.Ctx := Sol.shakePad (chunks.foldl Sol.shakeUpdate Sol.Ctx.init)

/-- Successive `shakeSqueeze` calls. -/
def solReads : Sol.Ctx → List Nat → List Bytes
  | _, [] => []
  | c, n :: ns => (Sol.shakeSqueeze c n).2 :: solReads (Sol.shakeSqueeze c n).1 ns

/-- Consecutive slices of the specified output. -/
def slices (out : Nat → Nat → Bytes) : Nat → List Nat → List Bytes
  | _, [] => []
  | a, n :: ns => out a n :: slices out (a + n) ns

theorem foldl_absorb (rate : Nat) (chunks : List Bytes) (c : Ctx) (hi : c.i < rate) :
    chunks.foldl (absorb F1600 rate) c = absorb F1600 rate c chunks.flatten := by
  induction chunks generalizing c with
  | nil => simp [absorb, absorbLoop]
  | cons a cs ih => rw [List.foldl_cons, ih _ (absorb_i _ _ hi), absorb_append _ _ _ hi, List.flatten_cons]

/-- C43, absorption: any chunking of the message gives the same context as absorbing it at once (any rate the class can be given). -/
theorem C43_absorb_chunks (rate : Nat) (hr : 0 < rate) (chunks : List Bytes) :
    chunks.foldl (absorb F1600 rate) Ctx.new = absorb F1600 rate Ctx.new chunks.flatten :=
  foldl_absorb rate chunks Ctx.new hr

section
variable {f g : List Lane → List Lane} (hfg : ∀ l, l.length = 25 → f l = g l) (hf : ∀ l, l.length = 25 → (f l).length = 25)
include hfg hf

theorem absorbBlocks_F (rate : Nat) (P : Bytes) : Spec.absorbBlocks f rate P = Spec.absorbBlocks g rate P := by
  have : ∀ (l : List Nat) (s : List Lane), s.length = 25 →
      l.foldl (fun s j => f (Spec.inject s ((P.drop (rate * j)).take rate))) s = l.foldl (fun s j => g (Spec.inject s ((P.drop (rate * j)).take rate))) s := by
    intro l
    induction l with
    | nil => intros; rfl
    | cons j l ih =>
      intro s hs
      have hlen : (Spec.inject s ((P.drop (rate * j)).take rate)).length = 25 := by
        rw [Spec.inject, List.length_zipWith, bytesToLanes_length, hs]; rfl
      rw [List.foldl_cons, List.foldl_cons, ← hfg _ hlen]
      exact ih _ (hf _ hlen)
  exact this _ _ List.length_replicate

theorem repeat_F (S : List Lane) (hS : S.length = 25) (k : Nat) : k.repeat f S = k.repeat g S := by
  induction k with
  | zero => rfl
  | succ k ih =>
    show f (k.repeat f S) = g (k.repeat g S)
    rw [hfg _ (repeat_length hf S hS k), ih]

theorem spongeOut_F (rate ds : Nat) (m : Bytes) (a n : Nat) : Spec.spongeOut f rate ds m a n = Spec.spongeOut g rate ds m a n := by
  unfold Spec.spongeOut Spec.spongeByte
  apply List.map_congr_left
  intro j _
  rw [repeat_F hfg hf _ (absorbBlocks_length hf _), absorbBlocks_F hfg hf]
end

theorem pyReads_xofAt (rate ds : Nat) (hr : 0 < rate) (hr2 : rate ≤ 200) (m : Bytes) (a : Nat) (ns : List Nat) :
    pyReads rate (xofAt F1600 rate ds m a) ns = slices (Spec.spongeOut Spec.F rate ds m) a ns := by
  induction ns generalizing a with
  | nil => rfl
  | cons n ns ih => rw [pyReads, squeeze_xofAt hr hr2 F1600_length, slices, ih, spongeOut_F F1600_spec F1600_length]

/-- C43, Python: after any sequence of updates and a flip, any sequence of reads returns consecutive slices of the FIPS 202 sponge output on the
concatenated updates.  (`rate`, `ds` arbitrary: SHAKE256 is `rate = 136`, `ds = 0x1f`, the Keccak-256 variant `ds = 0x01`.) -/
theorem C43_python (rate ds : Nat) (hr : 0 < rate) (hr2 : rate ≤ 200) (chunks : List Bytes) (ns : List Nat) :
    pyReads rate (pyFlipped rate ds chunks) ns = slices (Spec.spongeOut Spec.F rate ds chunks.flatten) 0 ns := by
  rw [pyFlipped, C43_absorb_chunks _ hr, pad_xofAt hr hr2, pyReads_xofAt _ _ hr hr2]

theorem mirror_foldl (chunks : List Bytes) (hb : ∀ c ∈ chunks, IsBytes c) {s : Sol.Ctx} {c : Ctx} (h : Mirror s c) :
    Mirror (chunks.foldl Sol.shakeUpdate s) (chunks.foldl (absorb F1600 136) c) := by
  induction chunks generalizing s c with
  | nil => exact h
  | cons a cs ih => exact ih (fun c hc => hb c (by simp [hc])) (mirror_update h a (hb a (by simp)))

theorem squeeze_i (m : Bytes) (ds a : Nat) : (xofAt F1600 136 ds m a).i < 136 := Nat.mod_lt _ (by decide)

theorem solReads_eq (m : Bytes) (ds a : Nat) (ns : List Nat) {s : Sol.Ctx} (h : Mirror s (xofAt F1600 136 ds m a)) :
    solReads s ns = pyReads 136 (xofAt F1600 136 ds m a) ns := by
  induction ns generalizing s a with
  | nil => rfl
  | cons n ns ih =>
    obtain ⟨h1, h2⟩ := mirror_squeeze h (squeeze_i _ _ _) n
    rw [solReads, pyReads, h2]
    rw [squeeze_xofAt (by decide) (by decide) F1600_length] at h1 ⊢
    rw [ih _ h1]

/-- C43, contract: any sequence of `shakeUpdate`, then padding, then any sequence of `shakeSqueeze` returns consecutive slices of SHAKE256 of the concatenation. -/
theorem C43_contract (chunks : List Bytes) (hb : ∀ c ∈ chunks, IsBytes c) (ns : List Nat) :
    solReads (solFlipped chunks) ns = slices (Spec.shake256 chunks.flatten) 0 ns := by
  have hm := mirror_pad (mirror_foldl chunks hb mirror_init)
  rw [C43_absorb_chunks 136 (by decide), pad_xofAt (by decide) (by decide)] at hm
  rw [solFlipped, solReads_eq _ _ _ _ hm, pyReads_xofAt 136 0x1f (by decide) (by decide)]
  rfl

/-- C43, contract: `shakeDigest` after any sequence of updates is SHAKE256 of the concatenation. -/
theorem C43_digest (chunks : List Bytes) (hb : ∀ c ∈ chunks, IsBytes c) (n : Nat) :
    Sol.shakeDigest (chunks.foldl Sol.shakeUpdate Sol.Ctx.init) n = Spec.shake256 chunks.flatten 0 n := by
  have hd := (mirror_foldl chunks hb mirror_init).dir
  have := C43_contract chunks hb [n]
  rw [Sol.shakeDigest, hd]
  simp only [solReads, slices, solFlipped] at this
  exact (List.cons.inj this).1

/-- C43: both implementations return the same bytes for the same history of calls. -/
theorem C43_agree (chunks : List Bytes) (hb : ∀ c ∈ chunks, IsBytes c) (ns : List Nat) :
    solReads (solFlipped chunks) ns = pyReads shakeRate (pyFlipped shakeRate shakeDs chunks) ns := by
  rw [C43_contract chunks hb]
  exact (C43_python 136 0x1f (by decide) (by decide) chunks ns).symm

/-- One long read is the concatenation of short ones. -/
theorem C43_read_split (m : Bytes) (a n k : Nat) : Spec.shake256 m a (n + k) = Spec.shake256 m a n ++ Spec.shake256 m (a + n) k := by
  unfold Spec.shake256 Spec.spongeOut
  rw [List.range_add, List.map_append, List.map_map]
  congr 1
  apply List.map_congr_left
  intro j _
  simp only [Function.comp, Nat.add_assoc]

/-- Each read returns the requested number of bytes. -/
theorem C43_length (m : Bytes) (a n : Nat) : (Spec.shake256 m a n).length = n := by
  unfold Spec.shake256 Spec.spongeOut; rw [List.length_map, List.length_range]

/-- Hypotheses of `C43_contract` at a non-trivial history. -/
example : ∀ c ∈ ([[1, 255], [], [7]] : List Bytes), IsBytes c := by decide

end Verif.Keccak
