import Verif.Hash.Prng
import Verif.Keccak.Props

/-! # Property C44: the PRNG is one fixed stream -/

namespace Verif.Hash

/-- The eight big-endian bytes of a counter. -/
def ctrBytes (c : Nat) : Bytes := (List.range 8).map fun i => c / 256 ^ (7 - i) % 256

/-- Specification: byte `k` of the stream of a seed is byte `k mod 32` of `H(H(seed) ‖ be64(k / 32))`. -/
def streamByte (H : Bytes → Bytes) (seed : Bytes) (k : Nat) : Nat := (H (H seed ++ ctrBytes (k / 32))).getD (k % 32) 0

/-- Bytes `[a, a+n)` of the stream. -/
def streamOut (H : Bytes → Bytes) (seed : Bytes) (a n : Nat) : Bytes := (List.range n).map fun j => streamByte H seed (a + j)

/-- The stream has `2^64` blocks of 32 bytes. -/
def streamEnd : Nat := 32 * 2 ^ 64

theorem be64_ok (c : Nat) (h : c < 2 ^ 64) : be64 c = .ok (ctrBytes c) := if_pos h
theorem be64_err (c : Nat) (h : ¬ c < 2 ^ 64) : be64 c = .error .valueError := if_neg h

/-- The generator `c` has delivered exactly `a` bytes of the stream of `seed`. -/
structure At (H : Bytes → Bytes) (seed : Bytes) (a : Nat) (c : Prng) : Prop where
  fin : c.finalized = true
  state : c.state = H seed
  counter : c.counter = (a + 31) / 32
  le : a ≤ streamEnd
  rest : if a % 32 = 0 then ¬ c.outLen > c.outPos else c.outLen = 32 ∧ c.outPos = a % 32 ∧ c.outBuf = H (H seed ++ ctrBytes (a / 32))

variable {H : Bytes → Bytes} {seed : Bytes}

theorem streamOut_add (a n k : Nat) : streamOut H seed a (n + k) = streamOut H seed a n ++ streamOut H seed (a + n) k := by
  unfold streamOut
  rw [List.range_add, List.map_append, List.map_map]
  congr 1
  apply List.map_congr_left
  intro j _
  simp only [Function.comp, Nat.add_assoc]

theorem streamOut_length (a n : Nat) : (streamOut H seed a n).length = n := by simp [streamOut]

/-- A piece of one block. -/
theorem block_slice (hH : ∀ x, (H x).length = 32) (a w : Nat) (h : a % 32 + w ≤ 32) :
    ((H (H seed ++ ctrBytes (a / 32))).drop (a % 32)).take w = streamOut H seed a w := by
  rw [Keccak.slice_eq _ _ _ (by rw [hH]; omega), streamOut]
  apply List.map_congr_left
  intro j hj
  have hj := List.mem_range.mp hj
  unfold streamByte
  rw [show (a + j) / 32 = a / 32 by omega, show (a + j) % 32 = a % 32 + j by omega]

theorem extractLoop_spec (hH : ∀ x, (H x).length = 32) (a length : Nat) (fuel : Nat) (c : Prng) (offset : Nat) (out : Bytes) (hc : At H seed (a + offset) c)
    (hal : (a + offset) % 32 = 0 ∨ offset = length) (hle : offset ≤ length) (hf : length - offset ≤ fuel) :
    (a + length ≤ streamEnd → ∃ c', Prng.extractLoop H length fuel c offset out = .ok (c', out ++ streamOut H seed (a + offset) (length - offset)) ∧ At H seed (a + length) c') ∧
    (streamEnd < a + length → Prng.extractLoop H length fuel c offset out = .error .valueError) := by
  induction fuel generalizing c offset out with
  | zero =>
    have : offset = length := by omega
    subst this
    refine ⟨fun _ => ⟨c, ?_, hc⟩, fun h => absurd hc.le (by omega)⟩
    simp [Prng.extractLoop, streamOut]
  | succ fuel ih =>
    unfold Prng.extractLoop
    by_cases hlt : offset < length
    · rw [if_pos hlt]
      have hal : (a + offset) % 32 = 0 := by omega
      have hctr : c.counter = (a + offset) / 32 := by rw [hc.counter]; omega
      by_cases hk : c.counter < 2 ^ 64
      · rw [be64_ok _ hk]
        dsimp only
        obtain ⟨w, hw⟩ : ∃ w, w = min (length - offset) 32 := ⟨_, rfl⟩
        rw [← hw]
        have hb : (H (c.state ++ ctrBytes c.counter)).take w = streamOut H seed (a + offset) w := by
          have := block_slice (H := H) (seed := seed) hH (a + offset) w (by omega)
          rw [hal, List.drop_zero] at this
          rw [hc.state, hctr, this]
        have hat : At H seed (a + (offset + w)) { c with outBuf := H (c.state ++ ctrBytes c.counter), outLen := 32, outPos := w, counter := c.counter + 1 } := by
          refine ⟨hc.fin, hc.state, ?_, ?_, ?_⟩
          · show c.counter + 1 = _
            rw [hctr]; omega
          · unfold streamEnd; omega
          · by_cases h32 : w = 32
            · rw [if_pos (by omega)]; simp [h32]
            · rw [if_neg (by omega)]
              refine ⟨rfl, by show w = _; omega, ?_⟩
              show H (c.state ++ ctrBytes c.counter) = _
              rw [hc.state, hctr, show (a + (offset + w)) / 32 = (a + offset) / 32 by omega]
        have hih := ih _ (offset + w) (out ++ streamOut H seed (a + offset) w) hat (by omega) (by omega) (by omega)
        rw [hb]
        refine ⟨fun h => ?_, hih.2⟩
        obtain ⟨c', h1, h2⟩ := hih.1 h
        refine ⟨c', ?_, h2⟩
        rw [h1, List.append_assoc, ← Nat.add_assoc, ← streamOut_add]
        congr 4
        omega
      · rw [be64_err _ hk]
        refine ⟨fun h => absurd h ?_, fun _ => rfl⟩
        unfold streamEnd
        omega
    · rw [if_neg hlt]
      have : offset = length := by omega
      subst this
      refine ⟨fun _ => ⟨c, ?_, hc⟩, fun h => absurd hc.le (by omega)⟩
      simp [streamOut]

/-- One `extract` call from position `a`. -/
theorem extract_at (hH : ∀ x, (H x).length = 32) (a length : Nat) (c : Prng) (hc : At H seed a c) :
    (a + length ≤ streamEnd → ∃ c', Prng.extract H c length = .ok (c', streamOut H seed a length) ∧ At H seed (a + length) c') ∧
    (streamEnd < a + length → Prng.extract H c length = .error .valueError) := by
  unfold Prng.extract
  rw [hc.fin]
  simp only [Bool.not_true, Bool.false_eq_true, if_false]
  by_cases h0 : a % 32 = 0
  · have hr := hc.rest; rw [if_pos h0] at hr
    rw [if_neg hr]
    simpa using extractLoop_spec hH a length length c 0 [] hc (Or.inl h0) (Nat.zero_le _) (Nat.le_refl _)
  · have hr := hc.rest; rw [if_neg h0] at hr
    obtain ⟨h1, h2, h3⟩ := hr
    have hctr := hc.counter
    have hle := hc.le
    rw [if_pos (by omega)]
    rw [h1, h2, h3]
    obtain ⟨w, hw⟩ : ∃ w, w = min length (32 - a % 32) := ⟨_, rfl⟩
    rw [← hw, block_slice hH a w (by omega)]
    have hend : 32 ∣ streamEnd := ⟨2 ^ 64, rfl⟩
    have hat : At H seed (a + w) ⟨c.buffer, c.state, c.bufferLen, c.counter, true, H (H seed ++ ctrBytes (a / 32)), a % 32 + w, 32⟩ := by
      refine ⟨rfl, hc.state, ?_, by omega, ?_⟩
      · show c.counter = _; omega
      · by_cases hz : (a + w) % 32 = 0
        · rw [if_pos hz]
          show ¬ 32 > a % 32 + w
          omega
        · rw [if_neg hz]
          exact ⟨rfl, by show a % 32 + w = _; omega, by rw [show (a + w) / 32 = a / 32 by omega]⟩
    by_cases hwl : w = length
    · rw [if_pos hwl]
      subst hwl
      exact ⟨fun _ => ⟨_, rfl, hat⟩, fun h => absurd hat.le (by omega)⟩
    · rw [if_neg hwl]
      obtain ⟨e1, e2⟩ := extractLoop_spec hH a length length _ w (streamOut H seed a w) hat (by omega) (by omega) (by omega)
      refine ⟨fun h => ?_, e2⟩
      obtain ⟨c', k1, k2⟩ := e1 h
      refine ⟨c', ?_, k2⟩
      rw [k1, ← streamOut_add]
      congr 3
      omega

/-! ## Statements -/

/-- `new()`, then `inject` of every chunk. -/
def injectAll (maxBuf : Nat) (c : Prng) : List Bytes → Except Err Prng
  | [] => .ok c
  | d :: ds => do injectAll maxBuf (← c.inject maxBuf d) ds

/-- Successive `extract` calls. -/
def extractAll (H : Bytes → Bytes) (c : Prng) : List Nat → Except Err (List Bytes)
  | [] => .ok []
  | n :: ns => do
    let (c, out) ← c.extract H n
    let outs ← extractAll H c ns
    return out :: outs

theorem inject_spec (maxBuf : Nat) (chunks : List Bytes) (c : Prng) (hb : c.buffer.length = maxBuf) (hl : c.bufferLen ≤ maxBuf) (hf : c.finalized = false) :
    (c.bufferLen + chunks.flatten.length ≤ maxBuf → ∃ c', injectAll maxBuf c chunks = .ok c' ∧ c'.finalized = false ∧ c'.counter = c.counter ∧
      c'.bufferLen = c.bufferLen + chunks.flatten.length ∧ c'.buffer.length = maxBuf ∧
      c'.buffer.take c'.bufferLen = c.buffer.take c.bufferLen ++ chunks.flatten) ∧
    (maxBuf < c.bufferLen + chunks.flatten.length → injectAll maxBuf c chunks = .error .valueError) := by
  induction chunks generalizing c with
  | nil => exact ⟨fun _ => ⟨c, rfl, hf, rfl, by simp, hb, by simp⟩, fun h => by simp at h; omega⟩
  | cons d ds ih =>
    rw [List.flatten_cons, List.length_append]
    by_cases h : d.length + c.bufferLen > maxBuf
    · refine ⟨fun h' => absurd h' (by omega), fun _ => ?_⟩
      simp only [injectAll, Prng.inject, hf, Bool.false_eq_true, if_false, if_pos h]; rfl
    · have e : c.inject maxBuf d = .ok { c with buffer := c.buffer.take c.bufferLen ++ d ++ c.buffer.drop (c.bufferLen + d.length), bufferLen := c.bufferLen + d.length } := by
        simp only [Prng.inject, hf, Bool.false_eq_true, if_false, if_neg h]
      have hblen : (c.buffer.take c.bufferLen ++ d ++ c.buffer.drop (c.bufferLen + d.length)).length = maxBuf := by simp; omega
      have := ih { c with buffer := c.buffer.take c.bufferLen ++ d ++ c.buffer.drop (c.bufferLen + d.length), bufferLen := c.bufferLen + d.length } hblen
        (by show c.bufferLen + d.length ≤ _; omega) hf
      have e2 : injectAll maxBuf c (d :: ds) = injectAll maxBuf { c with buffer := c.buffer.take c.bufferLen ++ d ++ c.buffer.drop (c.bufferLen + d.length), bufferLen := c.bufferLen + d.length } ds := by
        rw [injectAll, e]; rfl
      rw [e2]
      dsimp only at this
      refine ⟨fun h' => ?_, fun h' => this.2 (by omega)⟩
      obtain ⟨c', k1, k2, k3, k4, k5, k6⟩ := this.1 (by omega)
      refine ⟨c', k1, k2, k3, by omega, k5, ?_⟩
      rw [k6, List.take_append_of_le_length (by simp; omega), List.take_of_length_le (by simp; omega), List.append_assoc]

/-- C44, seeding: after `new()`, injecting chunks succeeds exactly when their total length fits the buffer (4096 for Keccak, 1024 for Blake2s), and otherwise raises. -/
theorem C44_inject_iff (maxBuf : Nat) (chunks : List Bytes) :
    (∃ c, injectAll maxBuf (Prng.new maxBuf) chunks = .ok c) ↔ chunks.flatten.length ≤ maxBuf := by
  have := inject_spec maxBuf chunks (Prng.new maxBuf) (by simp [Prng.new]) (Nat.zero_le _) rfl
  constructor
  · rintro ⟨c, hc⟩
    refine Nat.le_of_not_lt fun h => ?_
    rw [this.2 (by simpa [Prng.new] using h)] at hc
    cases hc
  · intro h
    obtain ⟨c, hc, _⟩ := this.1 (by simpa [Prng.new] using h)
    exact ⟨c, hc⟩

theorem flip_at (H : Bytes → Bytes) (maxBuf : Nat) (chunks : List Bytes) (h : chunks.flatten.length ≤ maxBuf) :
    ∃ c c', injectAll maxBuf (Prng.new maxBuf) chunks = .ok c ∧ c.flip H = .ok c' ∧ At H chunks.flatten 0 c' := by
  obtain ⟨c, k1, k2, k3, k4, k5, k6⟩ := (inject_spec maxBuf chunks (Prng.new maxBuf) (by simp [Prng.new]) (Nat.zero_le _) rfl).1 (by simpa [Prng.new] using h)
  refine ⟨c, { c with state := H (c.buffer.take c.bufferLen), finalized := true, outPos := 0, outLen := 0 }, k1, by simp [Prng.flip, k2], rfl, ?_, ?_, by decide, by simp⟩
  · show H _ = _
    rw [k6]; simp [Prng.new]
  · show c.counter = _
    rw [k3]; rfl

theorem extractAll_at (hH : ∀ x, (H x).length = 32) (ns : List Nat) (a : Nat) (c : Prng) (hc : At H seed a c) (h : a + ns.sum ≤ streamEnd) :
    extractAll H c ns = .ok (Keccak.slices (streamOut H seed) a ns) := by
  induction ns generalizing a c with
  | nil => rfl
  | cons n ns ih =>
    rw [List.sum_cons] at h
    obtain ⟨c', h1, h2⟩ := (extract_at hH a n c hc).1 (by omega)
    have := ih (a + n) c' h2 (by omega)
    rw [extractAll, h1, Keccak.slices]
    show (do let outs ← extractAll H c' ns; return streamOut H seed a n :: outs) = _
    rw [this]; rfl

/-- C44: after `new()`, any sequence of injections that fits, and `flip()`, every sequence of `extract` calls within the `2^64`-block counter range
returns consecutive slices of the fixed stream `H(H(seed) ‖ be64(counter))`, where the seed is the concatenation of the injected data. -/
theorem C44_stream (hH : ∀ x, (H x).length = 32) (maxBuf : Nat) (chunks : List Bytes) (h : chunks.flatten.length ≤ maxBuf) (ns : List Nat) (hn : ns.sum ≤ streamEnd) :
    (do let c ← injectAll maxBuf (Prng.new maxBuf) chunks; let c ← c.flip H; extractAll H c ns) = .ok (Keccak.slices (streamOut H chunks.flatten) 0 ns) := by
  obtain ⟨c, c', h1, h2, h3⟩ := flip_at H maxBuf chunks h
  rw [h1]
  show (do let c ← c.flip H; extractAll H c ns) = _
  rw [h2]
  exact extractAll_at hH ns 0 c' h3 (by omega)

/-- C44: injecting in pieces gives the same outputs as injecting at once. -/
theorem C44_chunks (hH : ∀ x, (H x).length = 32) (maxBuf : Nat) (chunks : List Bytes) (h : chunks.flatten.length ≤ maxBuf) (ns : List Nat) (hn : ns.sum ≤ streamEnd) :
    (do let c ← injectAll maxBuf (Prng.new maxBuf) chunks; let c ← c.flip H; extractAll H c ns) =
    (do let c ← injectAll maxBuf (Prng.new maxBuf) [chunks.flatten]; let c ← c.flip H; extractAll H c ns) := by
  rw [C44_stream hH maxBuf chunks h ns hn, C44_stream hH maxBuf [chunks.flatten] (by simpa using h) ns hn]
  simp

/-- C44, misuse: injecting after `flip` raises, flipping twice raises, extracting before `flip` raises, reading past the last counter value raises. -/
theorem C44_inject_after_flip (maxBuf : Nat) (c c' : Prng) (h : c.flip H = .ok c') (d : Bytes) : c'.inject maxBuf d = .error .valueError := by
  unfold Prng.flip at h; split at h
  · cases h
  · cases h; rfl
theorem C44_double_flip (c c' : Prng) (h : c.flip H = .ok c') : c'.flip H = .error .valueError := by
  unfold Prng.flip at h; split at h
  · cases h
  · cases h; rfl
theorem C44_extract_before_flip (maxBuf : Nat) (chunks : List Bytes) (c : Prng) (h : injectAll maxBuf (Prng.new maxBuf) chunks = .ok c) (n : Nat) :
    c.extract H n = .error .valueError := by
  have hl := (C44_inject_iff maxBuf chunks).1 ⟨c, h⟩
  obtain ⟨c', k1, k2, _⟩ := (inject_spec maxBuf chunks (Prng.new maxBuf) (by simp [Prng.new]) (Nat.zero_le _) rfl).1 (by simpa [Prng.new] using hl)
  rw [h] at k1; cases k1
  unfold Prng.extract; rw [k2]; rfl
theorem C44_exhausted (hH : ∀ x, (H x).length = 32) (a n : Nat) (c : Prng) (hc : At H seed a c) (h : streamEnd < a + n) : c.extract H n = .error .valueError :=
  (extract_at hH a n c hc).2 h

/-- Different blocks of one stream are hashes of different strings. -/
theorem C44_counter_injective (a b : Nat) (ha : a < 2 ^ 64) (hb : b < 2 ^ 64) (h : ctrBytes a = ctrBytes b) : a = b := by
  simp only [ctrBytes, List.range, List.range.loop, List.map, List.cons.injEq, and_true] at h
  omega

/-- A concrete run with a toy hash (32 copies of the last byte of its input): three reads across a block border. -/
example : (do let c ← injectAll 64 (Prng.new 64) [[1, 2], [], [3]]; let c ← c.flip (fun x => List.replicate 32 (x.getLastD 0)); extractAll (fun x => List.replicate 32 (x.getLastD 0)) c [1, 31, 2]) =
    Except.ok [[0], List.replicate 31 0, [1, 1]] := by decide +kernel
example : ∀ x : Bytes, ((fun x => List.replicate 32 (x.getLastD 0)) x : Bytes).length = 32 := fun _ => List.length_replicate

end Verif.Hash
