import Verif.Cli.Model
import Verif.Keccak.Props
import Verif.Falcon.Props
import Verif.Epervier.PyProps

/-! # C50: the randomness of CLI signatures

`SHAKE` is read without `flip`: the bytes still in the buffer are mixed in only after the rest of the block has been read. -/

namespace Verif.Cli

open Verif Verif.Falcon Verif.Hash Verif.Keccak

/-! ## Reading from any state of the sponge -/

section
variable {f : List Lane → List Lane} {rate : ℕ}

/-- The state after the pending bytes have been mixed in. -/
def flushed (f : List Lane → List Lane) (c : Ctx) : List Lane := f (List.zipWith (· ^^^ ·) c.state (bytesToLanes c.buf))

/-- Byte number `k` read from context `c`. -/
def byteAt (f : List Lane → List Lane) (rate : ℕ) (c : Ctx) (k : ℕ) : ℕ :=
  if c.i + k < rate then (lanesToBytes c.state).getD (c.i + k) 0
  else (lanesToBytes (((c.i + k - rate) / rate).repeat f (flushed f c))).getD ((c.i + k - rate) % rate) 0

/-- The context after `n` bytes were read. -/
def ctxAt (f : List Lane → List Lane) (rate : ℕ) (c : Ctx) (n : ℕ) : Ctx :=
  if c.i + n < rate then { c with i := c.i + n } else squeezed f rate (flushed f c) (c.i + n - rate)

theorem flushed_length (hf : ∀ l, l.length = 25 → (f l).length = 25) (c : Ctx) (hS : c.state.length = 25) : (flushed f c).length = 25 := by
  unfold flushed
  apply hf
  unfold Spec.bytesToLanes
  rw [List.length_zipWith, List.length_map, List.length_range, hS]
  rfl

/-- What a read returns. -/
theorem squeeze_any (hr2 : rate ≤ 200) (hf : ∀ l, l.length = 25 → (f l).length = 25) (c : Ctx) (hS : c.state.length = 25) (hi : c.i < rate) (n : ℕ) :
    squeeze f rate c n = (ctxAt f rate c n, (List.range n).map (byteAt f rate c)) := by
  have hr : 0 < rate := by omega
  rcases Nat.eq_zero_or_pos n with rfl | hn
  · unfold squeeze squeezeLoop ctxAt
    rw [if_pos (by omega)]
    rfl
  · obtain ⟨n, rfl⟩ : ∃ m, n = m + 1 := ⟨n - 1, by omega⟩
    unfold squeeze squeezeLoop
    rw [if_neg (by omega)]
    dsimp only
    rw [List.nil_append]
    by_cases h : c.i + (n + 1) < rate
    · have hw : min (rate - c.i) (n + 1) = n + 1 := by omega
      rw [hw, if_neg (by omega), Nat.sub_self]
      have h0 : ∀ (fuel : ℕ) (c : Ctx) (b : Bytes), squeezeLoop f rate fuel c 0 b = (c, b) := by
        intro fuel c b; cases fuel <;> rfl
      rw [h0, slice_eq _ _ _ (by rw [lanesToBytes_length, hS]; omega)]
      congr 1
      · unfold ctxAt; rw [if_pos h]
      · apply List.map_congr_left
        intro j hj
        have := List.mem_range.1 hj
        unfold byteAt
        rw [if_pos (by omega)]
    · have hw : min (rate - c.i) (n + 1) = rate - c.i := by omega
      rw [hw, if_pos (by omega)]
      have hp : permute f { state := c.state, buf := c.buf, i := c.i + (rate - c.i) } = squeezed f rate (flushed f c) 0 := by
        unfold permute squeezed flushed
        rw [Nat.zero_div, Nat.zero_mod]
        rfl
      rw [hp, squeezeLoop_eq hr hr2 hf _ (flushed_length hf c hS) _ _ _ _ (by omega), slice_eq _ _ _ (by rw [lanesToBytes_length, hS]; omega)]
      congr 1
      · unfold ctxAt
        rw [if_neg h]
        congr 1
        omega
      · have e2 : List.range (n + 1) = List.range (rate - c.i) ++ (List.range (n + 1 - (rate - c.i))).map (rate - c.i + ·) := by
          rw [← List.range_add]; congr 1; omega
        rw [e2, List.map_append, List.map_map]
        congr 1
        · apply List.map_congr_left
          intro j hj
          have := List.mem_range.1 hj
          unfold byteAt
          rw [if_pos (by omega)]
        · apply List.map_congr_left
          intro j _
          simp only [Function.comp, byteAt]
          rw [if_neg (by omega), show c.i + (rate - c.i + j) - rate = 0 + j by omega]

/-- Reading twice is reading once. -/
theorem squeeze_split (hr2 : rate ≤ 200) (hf : ∀ l, l.length = 25 → (f l).length = 25) (c : Ctx) (hS : c.state.length = 25) (hi : c.i < rate) (a k : ℕ) :
    (squeeze f rate (squeeze f rate c a).1 k).2 = ((squeeze f rate c (a + k)).2).drop a := by
  have hr : 0 < rate := by omega
  have e : ((squeeze f rate c (a + k)).2).drop a = (List.range k).map fun j => byteAt f rate c (a + j) := by
    rw [squeeze_any hr2 hf c hS hi, List.range_add, List.map_append, List.drop_left' (by simp), List.map_map]
    rfl
  rw [e, squeeze_any hr2 hf c hS hi]
  dsimp only
  unfold ctxAt
  by_cases h : c.i + a < rate
  · rw [if_pos h, squeeze_any hr2 hf { c with i := c.i + a } hS h]
    apply List.map_congr_left
    intro j _
    simp only [byteAt, flushed, Nat.add_assoc]
  · rw [if_neg h, squeeze_eq hr hr2 hf _ (flushed_length hf c hS)]
    apply List.map_congr_left
    intro j _
    unfold byteAt
    rw [if_neg (by omega), show c.i + (a + j) - rate = c.i + a - rate + j by omega]

end

/-! ## The sponge of `signature` -/

/-- Everything `signature` puts into the sponge. -/
def absorbed (hBytes data : Bytes) : Bytes := List.replicate 32 0x01 ++ [0x00] ++ hBytes ++ data

theorem absorbed_length (hBytes data : Bytes) : (absorbed hBytes data).length = 33 + hBytes.length + data.length := by
  unfold absorbed
  rw [List.length_append, List.length_append, List.length_append, List.length_replicate]
  rfl

theorem cliSponge_eq (hBytes data : Bytes) :
    cliSponge hBytes data = ⟨Spec.absorbBlocks F1600 136 (absorbed hBytes data), xorAt (List.replicate 200 0) 0 (tail 136 (absorbed hBytes data)), (absorbed hBytes data).length % 136⟩ := by
  unfold cliSponge
  dsimp only
  have hs : shakeRate = 136 := rfl
  rw [hs]
  have h0 : Ctx.new.i < 136 := by decide
  rw [absorb_append _ _ _ h0, absorb_append _ _ _ h0, absorb_append _ _ _ h0, absorb_new (by decide) (by decide)]
  rfl

/-- Byte `k` of the stream of an unflipped SHAKE256 sponge that absorbed `m`: while the current block lasts, bytes of the state *before* the last, incomplete block is mixed in;
then the bytes of the states after mixing it in (without padding). -/
def unflippedByte (F : List Lane → List Lane) (m : Bytes) (k : ℕ) : ℕ :=
  let S := Spec.absorbBlocks F 136 m
  let p := m.length % 136 + k
  if p < 136 then (lanesToBytes S).getD p 0
  else (lanesToBytes ((p / 136 - 1).repeat F (F (Spec.inject S (m.drop (136 * (m.length / 136))))))).getD (p % 136) 0

theorem sponge_bytes (hBytes data : Bytes) (n : ℕ) :
    (squeeze F1600 shakeRate (cliSponge hBytes data) n).2 = (List.range n).map (unflippedByte F1600 (absorbed hBytes data)) := by
  have hs : shakeRate = 136 := rfl
  have hi : (absorbed hBytes data).length % 136 < 136 := Nat.mod_lt _ (by decide)
  have ht : (tail 136 (absorbed hBytes data)).length ≤ 200 := by rw [tail_length]; omega
  rw [hs, cliSponge_eq, squeeze_any (by decide) F1600_length _ (absorbBlocks_length F1600_length _) hi]
  dsimp only
  apply List.map_congr_left
  intro j _
  unfold byteAt unflippedByte flushed
  dsimp only
  split
  · rfl
  · rename_i h
    rw [bytes_zero_xor _ ht]
    have e : ((absorbed hBytes data).length % 136 + j - 136) / 136 = ((absorbed hBytes data).length % 136 + j) / 136 - 1 := by omega
    have e' : ((absorbed hBytes data).length % 136 + j - 136) % 136 = ((absorbed hBytes data).length % 136 + j) % 136 := by omega
    rw [e, e']
    rfl

theorem cliBytes_eq (hBytes data : Bytes) (a k : ℕ) :
    cliBytes hBytes data a k = (List.range k).map fun j => unflippedByte F1600 (absorbed hBytes data) (a + j) := by
  unfold cliBytes
  rw [sponge_bytes, List.range_add, List.map_append, List.drop_left' (by simp), List.map_map]
  rfl

/-- C50: the reads of the signing functions are consecutive parts of one stream: reading `k` bytes after a read of `a` bytes. -/
theorem C50_reads (hBytes data : Bytes) (a k : ℕ) :
    (squeeze F1600 shakeRate (squeeze F1600 shakeRate (cliSponge hBytes data) a).1 k).2 = cliBytes hBytes data a k := by
  unfold cliBytes
  rw [cliSponge_eq]
  exact squeeze_split (by decide) F1600_length _ (absorbBlocks_length F1600_length _) (Nat.mod_lt _ (by decide)) a k

/-- C50: the stream, in terms of the Keccak permutation of FIPS 202. -/
theorem C50_stream (hBytes data : Bytes) (a k : ℕ) :
    cliBytes hBytes data a k =
      (List.range k).map fun j => unflippedByte Spec.F (List.replicate 32 0x01 ++ [0x00] ++ hBytes ++ data) (a + j) := by
  rw [cliBytes_eq]
  apply List.map_congr_left
  intro j _
  change unflippedByte F1600 (absorbed hBytes data) (a + j) = unflippedByte Spec.F (absorbed hBytes data) (a + j)
  unfold unflippedByte
  dsimp only
  rw [absorbBlocks_F F1600_spec F1600_length]
  have hl : ∀ b : Bytes, (Spec.inject (Spec.absorbBlocks Spec.F 136 (absorbed hBytes data)) b).length = 25 := by
    intro b
    rw [← absorbBlocks_F F1600_spec F1600_length]
    unfold Spec.inject Spec.bytesToLanes
    rw [List.length_zipWith, List.length_map, List.length_range, absorbBlocks_length F1600_length]
    rfl
  split
  · rfl
  · rw [F1600_spec _ (hl _), repeat_F F1600_spec F1600_length _ (by rw [← F1600_spec _ (hl _)]; exact F1600_length _ (hl _))]

theorem cliBytes_length (hBytes data : Bytes) (a k : ℕ) : (cliBytes hBytes data a k).length = k := by
  rw [cliBytes_eq, List.length_map, List.length_range]

theorem lanesToBytes_isBytes (l : List Lane) : IsBytes (lanesToBytes l) := by
  intro b hb
  unfold Spec.lanesToBytes at hb
  rw [List.mem_flatMap] at hb
  obtain ⟨w, _, hb⟩ := hb
  obtain ⟨j, _, rfl⟩ := List.mem_map.1 hb
  exact Nat.mod_lt _ (by decide)

theorem getD_byte (l : Bytes) (h : IsBytes l) (k : ℕ) : l.getD k 0 < 256 := by
  rw [List.getD_eq_getElem?_getD]
  rcases hk : l[k]? with _ | x
  · decide
  · exact h _ (List.mem_of_getElem? hk)

theorem cliBytes_isBytes (hBytes data : Bytes) (a k : ℕ) : IsBytes (cliBytes hBytes data a k) := by
  rw [cliBytes_eq]
  intro b hb
  obtain ⟨j, _, rfl⟩ := List.mem_map.1 hb
  unfold unflippedByte
  dsimp only
  split <;> exact getD_byte _ (lanesToBytes_isBytes _) _

/-! ## What is absorbed and which parts of the stream are used -/

/-- C50: the public key enters as the big-endian 16-bit words of `h`; exactly the lists with entries in `[0, 65536)` are encoded. -/
theorem C50_public_bytes (l : List ℤ) (b : Bytes) :
    joinBytes2 l = .ok b ↔ (∀ x ∈ l, 0 ≤ x ∧ x < 65536) ∧ b = l.flatMap fun x => [x.toNat / 256, x.toNat % 256] := by
  induction l generalizing b with
  | nil => unfold joinBytes2; simp [eq_comm]
  | cons x l ih =>
    unfold joinBytes2
    rw [List.forall_mem_cons, List.flatMap_cons]
    split
    · rename_i h
      constructor
      · intro h; cases h
      · rintro ⟨⟨h', _⟩, _⟩; omega
    · rename_i h
      rcases hj : joinBytes2 l with e | r
      · dsimp only
        constructor
        · intro h; cases h
        · rintro ⟨⟨_, h'⟩, _⟩
          have := (ih _).2 ⟨h', rfl⟩
          rw [hj] at this; cases this
      · dsimp only
        obtain ⟨h1, h2⟩ := (ih r).1 hj
        rw [← h2]
        constructor
        · intro h; cases h; exact ⟨⟨by omega, h1⟩, rfl⟩
        · rintro ⟨_, rfl⟩; rfl

example : joinBytes2 [12288, 0, 5] = .ok [48, 0, 0, 0, 0, 5] := by decide

theorem cliBytes_append (hBytes data : Bytes) (a k l : ℕ) : cliBytes hBytes data a k ++ cliBytes hBytes data (a + k) l = cliBytes hBytes data a (k + l) := by
  rw [cliBytes_eq, cliBytes_eq, cliBytes_eq, List.range_add, List.map_append, List.map_map]
  congr 1
  apply List.map_congr_left
  intro j _
  rw [Function.comp_apply, Nat.add_assoc]

/-- C50: in the recovery modes the salt and the seeds of the iterations are disjoint consecutive parts of the stream: 40 bytes, then 48 bytes per iteration. -/
theorem C50_recover_seeds (hBytes data : Bytes) (k : ℕ) :
    cliSalt hBytes data ++ (List.range k).flatMap (cliSeed true hBytes data) = cliBytes hBytes data 0 (40 + 48 * k) := by
  induction k with
  | zero => rw [List.range_zero, List.flatMap_nil, List.append_nil]; rfl
  | succ k ih =>
    rw [List.range_succ, List.flatMap_append, ← List.append_assoc, ih, List.flatMap_cons, List.flatMap_nil, List.append_nil]
    unfold cliSeed
    rw [if_pos rfl]
    have := cliBytes_append hBytes data 0 (40 + 48 * k) 48
    rw [Nat.zero_add] at this
    rw [this]
    rfl

/-- C50: for a plain key, salt and seed are the first 88 bytes of the stream, and the iterations take disjoint consecutive 56-byte parts of SHAKE256 of the seed. -/
theorem C50_plain_seeds (hBytes data : Bytes) :
    ∃ seed : Bytes, seed.length = 48 ∧ cliSalt hBytes data ++ seed = cliBytes hBytes data 0 88 ∧
      ∀ k, cliSeed false hBytes data k = Spec.shake256 seed (56 * k) 56 := by
  refine ⟨cliBytes hBytes data 40 48, cliBytes_length _ _ _ _, cliBytes_append hBytes data 0 40 48, fun k => ?_⟩
  unfold cliSeed
  rw [if_neg (by decide)]
  dsimp only
  generalize cliBytes hBytes data 40 48 = seed
  have h := C43_python shakeRate shakeDs (by decide) (by decide) [seed] [56 * k + 56]
  simp only [pyReads, slices, pyFlipped, List.foldl_cons, List.foldl_nil, List.flatten_cons, List.flatten_nil, List.append_nil] at h
  rw [(List.cons.inj h).1]
  change (Spec.shake256 seed 0 (56 * k + 56)).drop (56 * k) = _
  rw [C43_read_split, List.drop_left' (C43_length _ _ _), Nat.zero_add]

/-! ## The last block does not count -/

theorem absorbBlocks_agree (m m' : Bytes) (hl : m.length = m'.length) (h : m.take (m.length - m.length % 136) = m'.take (m.length - m.length % 136)) :
    Spec.absorbBlocks F1600 136 m = Spec.absorbBlocks F1600 136 m' := by
  apply absorbBlocks_congr
  · rw [hl]
  · have : 136 * (m.length / 136) = m.length - m.length % 136 := by omega
    rw [this]; exact h

/-- C50 (refutation, exact form): let `r` be the length of what is absorbed, modulo 136.  Data of the same length that differ only in the last `r` bytes give the same first
`136 - r` bytes of the stream. -/
theorem C50_last_block (hBytes data data' : Bytes) (hl : data.length = data'.length) (r : ℕ) (hr : r = (33 + hBytes.length + data.length) % 136)
    (h : data.take (data.length - r) = data'.take (data.length - r)) (a k : ℕ) (hk : a + k + r ≤ 136) : cliBytes hBytes data a k = cliBytes hBytes data' a k := by
  rw [cliBytes_eq, cliBytes_eq]
  apply List.map_congr_left
  intro j hj
  have hj := List.mem_range.1 hj
  have e1 := absorbed_length hBytes data
  have e2 := absorbed_length hBytes data'
  unfold unflippedByte
  dsimp only
  rw [e1, e2, ← hl, ← hr, if_pos (by omega), if_pos (by omega), absorbBlocks_agree]
  · rw [e1, e2, hl]
  · rw [e1, ← hr]
    unfold absorbed
    rw [List.take_append (l₂ := data), List.take_append (l₂ := data')]
    have e3 : (List.replicate 32 0x01 ++ [0x00] ++ hBytes).length = 33 + hBytes.length := by
      rw [List.length_append, List.length_append, List.length_replicate]; rfl
    rw [e3]
    congr 1
    have : 33 + hBytes.length + data.length - r - (33 + hBytes.length) = data.length - r := by omega
    rw [this]
    exact h

theorem joinBytes2_length (l : List ℤ) (b : Bytes) (h : joinBytes2 l = .ok b) : b.length = 2 * l.length := by
  induction l generalizing b with
  | nil => cases h; rfl
  | cons x l ih =>
    unfold joinBytes2 at h
    split at h
    · cases h
    · rcases hj : joinBytes2 l with e | r
      · rw [hj] at h; cases h
      · rw [hj] at h
        cases h
        simp only [List.length_cons, ih r hj]
        omega

/-- C50 (refutation): with a key of dimension 512 and 32 bytes of data — such as the hash of a transaction — the last byte of the data has no influence on the salt nor on any seed
of the sampler: data that differ in the last byte only are signed with the same salt and the same sampler randomness (in the recovery modes: the same seed in the first iteration). -/
theorem C50_hash_data_false (hBytes data data' : Bytes) (hh : hBytes.length = 1024) (h1 : data.length = 32) (h2 : data'.length = 32)
    (h : data.take 31 = data'.take 31) :
    cliSalt hBytes data = cliSalt hBytes data' ∧ (∀ k, cliSeed false hBytes data k = cliSeed false hBytes data' k) ∧
      cliSeed true hBytes data 0 = cliSeed true hBytes data' 0 := by
  have key : ∀ a k, a + k ≤ 135 → cliBytes hBytes data a k = cliBytes hBytes data' a k := fun a k hk =>
    C50_last_block hBytes data data' (by omega) 1 (by rw [hh, h1]) (by rw [h1]; exact h) a k (by omega)
  refine ⟨key 0 40 (by omega), fun k => ?_, ?_⟩
  · unfold cliSeed
    rw [if_neg (by decide), if_neg (by decide), key 40 48 (by omega)]
  · unfold cliSeed
    rw [if_pos rfl, if_pos rfl]
    exact key _ _ (by omega)

/-- C50 (refutation): so different data share a salt, for every key of dimension 512. -/
theorem C50_distinct_salts_false (hBytes : Bytes) (hh : hBytes.length = 1024) :
    ∃ data data' : Bytes, IsBytes data ∧ IsBytes data' ∧ data.length = 32 ∧ data'.length = 32 ∧ data ≠ data' ∧
      cliSalt hBytes data = cliSalt hBytes data' ∧ ∀ k, cliSeed false hBytes data k = cliSeed false hBytes data' k := by
  refine ⟨List.replicate 31 0 ++ [0], List.replicate 31 0 ++ [1], by decide, by decide, by decide, by decide, by decide, ?_⟩
  have := C50_hash_data_false hBytes (List.replicate 31 0 ++ [0]) (List.replicate 31 0 ++ [1]) hh (by decide) (by decide) (by decide)
  exact ⟨this.1, this.2.1⟩

/-- C50 (refutation): with a key of dimension 512 and data of at most 30 bytes, the first bytes of the salt are the same for all data: they depend on the public key only. -/
theorem C50_short_data_false (hBytes data data' : Bytes) (hh : hBytes.length = 1024) (d : ℕ) (hd : d ≤ 30) (h1 : data.length = d) (h2 : data'.length = d) :
    (cliSalt hBytes data).take (31 - d) = (cliSalt hBytes data').take (31 - d) := by
  have key : cliBytes hBytes data 0 (31 - d) = cliBytes hBytes data' 0 (31 - d) :=
    C50_last_block hBytes data data' (by omega) (105 + d) (by rw [hh, h1]; omega)
      (by rw [show data.length - (105 + d) = 0 by omega]; rfl) 0 (31 - d) (by omega)
  have e : ∀ x, (cliSalt hBytes x).take (31 - d) = cliBytes hBytes x 0 (31 - d) := by
    intro x
    unfold cliSalt
    rw [cliBytes_eq, cliBytes_eq, ← List.map_take, List.take_range, show min (31 - d) 40 = 31 - d by omega]
  rw [e, e, key]

/-! ## The salt is public -/

/-- C50 (refutation): the salt of every signature the tool makes is a function of the public key and the data; the secret key has no part in it.  So have the seeds `cliSeed`
by their definition: `signWith` gives the sampler nothing else. -/
theorem C50_salt_public (P : PolyLib) (H : Bytes → Bytes) (cls : Option Epervier.Mode) (Z : Sampler) (n bound bytelen : ℕ) (sk : SecretKey) (data : Bytes) (version : Option Text)
    (fuel : ℕ) (sig hBytes : Bytes) (hh : joinBytes2 sk.h = .ok hBytes) (h : signature P H cls Z n bound bytelen sk data version fuel = some (.ok sig)) :
    (sig.drop 1).take 40 = cliSalt hBytes data := by
  have hl : (cliSalt hBytes data).length = 40 := cliBytes_length _ _ _ _
  have fin : ∀ (x : ℕ) (e : Bytes), ((x :: cliSalt hBytes data ++ e).drop 1).take 40 = cliSalt hBytes data := by
    intro x e
    rw [List.cons_append, List.drop_one, List.tail_cons, List.take_append_of_le_length (by omega), List.take_of_length_le (by omega)]
  have main : ∀ {S : Type} (X : Xof S), signWith P X cls Z n bound bytelen sk hBytes data fuel = some (.ok sig) → (sig.drop 1).take 40 = cliSalt hBytes data := by
    intro S X h
    unfold signWith at h
    cases cls with
    | none =>
      obtain ⟨c, _, j, _, _, enc, _, _, _, e⟩ := (C29_first_good X n bound bytelen _ _ _ sig).1 ⟨fuel, h⟩
      rw [e]; exact fin _ _
    | some M =>
      simp only [Epervier.pySign] at h
      rcases hp : hashToPoint X n data (cliSalt hBytes data) fuel with _ | (e | pt)
      · rw [hp] at h; cases h
      · rw [hp] at h; cases h
      · rw [hp] at h
        simp only at h
        generalize hat : (fun k => samplePreimage n sk (List.map (fun x : ℕ => (x : ℤ)) pt) (Z sk (List.map (fun x : ℕ => (x : ℤ)) pt) (cliSeed true hBytes data k))) = at' at h
        have loop : ∀ (fu k : ℕ), Epervier.pySignLoop M P at' bound (bytelen * 2 - 1 - 40) ([0x30 + logn n] ++ cliSalt hBytes data) fu k = some (.ok sig) →
            (sig.drop 1).take 40 = cliSalt hBytes data := by
          intro fu
          induction fu with
          | zero => intro k h; cases h
          | succ fu ih =>
            intro k h
            unfold Epervier.pySignLoop at h
            dsimp only at h
            split at h
            · split at h
              · split at h
                · split at h
                  · cases h
                  · cases h
                    rw [List.append_assoc, List.append_assoc]
                    exact fin _ _
                · split at h
                  · split at h
                    · cases h
                    · exact ih _ h
                  · exact ih _ h
              · exact ih _ h
            · exact ih _ h
        exact loop _ _ h
  unfold signature at h
  rw [hh] at h
  simp only at h
  split at h
  · exact main _ h
  · exact main _ h

end Verif.Cli
