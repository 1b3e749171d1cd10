import Verif.CRef.KeccakSponge
import Verif.CRef.KeccakSpec
import Verif.Hash.Props

/-! # Property C80: Keccak-256, the generator and hash-to-point of the C code -/

namespace Verif.CRef

open Verif.Hash (Prng streamByte streamOut ctrBytes IsPoint accepted word16)

/-! ## Keccak-256 -/

theorem Keccak256_length (m : Bytes) : (Keccak256 m).length = 32 := by
  unfold Keccak256 Keccak.Spec.spongeOut; rw [List.length_map, List.length_range]

theorem Keccak256_bytes (m : Bytes) : IsBytes (Keccak256 m) := by
  intro b hb
  unfold Keccak256 Keccak.Spec.spongeOut at hb
  obtain ⟨j, _, rfl⟩ := List.mem_map.1 hb
  unfold Keccak.Spec.spongeByte
  rw [List.getD_eq_getElem?_getD]
  cases h : (Keccak.Spec.lanesToBytes ((((0 + j) / 136).repeat Keccak.Spec.F (Keccak.Spec.absorbBlocks Keccak.Spec.F 136 (m ++ Keccak.Spec.pad 1 136 m.length)))))[(0 + j) % 136]? with
  | none => decide
  | some v =>
    have := List.mem_of_getElem? h
    unfold Keccak.Spec.lanesToBytes at this
    obtain ⟨w, _, hw⟩ := List.mem_flatMap.1 this
    obtain ⟨k, _, rfl⟩ := List.mem_map.1 hw
    exact Nat.mod_lt _ (by decide)

/-- **C80**: hashing a message in pieces of fewer than 65536 bytes, at whatever alignment, gives Keccak-256 of the message. -/
theorem C80_keccak256_pieces (pieces : List (Bool × Bytes)) (h : ∀ p ∈ pieces, p.2.length < 65536) :
    keccakFinal (pieces.foldl (fun c p => keccakUpdate p.1 c p.2) keccakInit) = Keccak256 (pieces.map (·.2)).flatten := by
  have key : ∀ (l : List (Bool × Bytes)) (c : Sha3) (m : Bytes), (∀ p ∈ l, p.2.length < 65536) → Absorbed m c →
      Absorbed (m ++ (l.map (·.2)).flatten) (l.foldl (fun c p => keccakUpdate p.1 c p.2) c) := by
    intro l
    induction l with
    | nil => intro c m _ hc; simpa using hc
    | cons p l ih =>
      intro c m hl hc
      rw [List.foldl_cons, List.map_cons, List.flatten_cons, ← List.append_assoc]
      exact ih _ _ (fun q hq => hl q (by simp [hq])) (update_ok p.1 m p.2 c hc (hl p (by simp)))
  have := key pieces keccakInit [] h init_ok
  rw [List.nil_append] at this
  exact final_ok _ _ this

/-- **C80**, one call: the length argument has 16 bits, so a longer message is cut to its length modulo 65536. -/
theorem C80_keccak256 (aligned : Bool) (m : Bytes) : keccak256 aligned m = Keccak256 (m.take (m.length % 65536)) := by
  have hl : (m.take (m.length % 65536)).length = m.length % 65536 := by
    rw [List.length_take, Nat.min_eq_left (Nat.mod_le _ _)]
  have e : keccakUpdate aligned keccakInit m = keccakUpdate aligned keccakInit (m.take (m.length % 65536)) := by
    unfold keccakUpdate
    dsimp only
    rw [hl, Nat.mod_mod, show (m.take (m.length % 65536)).take (m.length % 65536) = m.take (m.length % 65536) by rw [List.take_take, Nat.min_self]]
  unfold keccak256
  rw [e]
  have := C80_keccak256_pieces [(aligned, m.take (m.length % 65536))] (by
    intro p hp
    rw [List.mem_singleton] at hp
    subst hp
    show (m.take (m.length % 65536)).length < 65536
    rw [hl]; exact Nat.mod_lt _ (by decide))
  simpa using this

theorem keccak256_short (aligned : Bool) (m : Bytes) (h : m.length < 65536) : keccak256 aligned m = Keccak256 m := by
  rw [C80_keccak256, Nat.mod_eq_of_lt h, List.take_length]

/-! ## The generator -/

theorem counterBytes_eq (k : Nat) : counterBytes k = ctrBytes k := by
  unfold counterBytes ctrBytes
  apply List.map_congr_left
  intro i hi
  have hi : i < 8 := List.mem_range.mp hi
  rw [Nat.shiftRight_eq_div_pow, show (0xFF : Nat) = 2 ^ 8 - 1 from rfl, Nat.and_two_pow_sub_one_eq_mod,
    show (256 : Nat) = 2 ^ 8 from rfl, ← Nat.pow_mul, show 8 * (7 - i) = 56 - i * 8 by omega]

theorem ctrBytes_mod (k : Nat) : ctrBytes (k % 2 ^ 64) = ctrBytes k := by
  simp only [ctrBytes, List.range, List.range.loop, List.map, List.cons.injEq, and_true]
  omega

theorem ctrBytes_length (k : Nat) : (ctrBytes k).length = 8 := by simp [ctrBytes]

/-- The context `c` has delivered `a` bytes of the stream of `seed`. -/
structure CAt (seed : Bytes) (a : Nat) (c : Prng) : Prop where
  fin : c.finalized = true
  state : c.state = Keccak256 seed
  counter : c.counter = (a + 31) / 32 % 2 ^ 64
  rest : if a % 32 = 0 then ¬ c.outLen > c.outPos else c.outLen = 32 ∧ c.outPos = a % 32 ∧ c.outBuf = Keccak256 (Keccak256 seed ++ ctrBytes (a / 32))

theorem block_hash (seed : Bytes) (k : Nat) : keccak256 true (Keccak256 seed ++ ctrBytes k) = Keccak256 (Keccak256 seed ++ ctrBytes k) :=
  keccak256_short _ _ (by rw [List.length_append, Keccak256_length, ctrBytes_length]; omega)

theorem cExtractLoop_ok (seed : Bytes) (a len : Nat) (fuel : Nat) (c : Prng) (offset : Nat) (out : Bytes) (hc : CAt seed (a + offset) c)
    (hal : (a + offset) % 32 = 0 ∨ offset = len) (hle : offset ≤ len) (hf : len - offset ≤ fuel) :
    ∃ c', prngExtractLoop len fuel c offset out = (c', out ++ streamOut Keccak256 seed (a + offset) (len - offset)) ∧ CAt seed (a + len) c' := by
  induction fuel generalizing c offset out with
  | zero =>
    have : offset = len := by omega
    subst this
    exact ⟨c, by simp [prngExtractLoop, streamOut], hc⟩
  | succ fuel ih =>
    unfold prngExtractLoop
    by_cases hlt : offset < len
    · rw [if_pos hlt]
      have hal : (a + offset) % 32 = 0 := by omega
      have hctr : c.counter = (a + offset) / 32 % 2 ^ 64 := by rw [hc.counter, show (a + offset + 31) / 32 = (a + offset) / 32 by omega]
      dsimp only
      obtain ⟨w, hw⟩ : ∃ w, w = if len - offset < 32 then len - offset else 32 := ⟨_, rfl⟩
      rw [← hw]
      have hw2 : w = min (len - offset) 32 := by rw [hw]; split <;> omega
      have hbk : keccak256 true (c.state ++ counterBytes c.counter) = Keccak256 (Keccak256 seed ++ ctrBytes ((a + offset) / 32)) := by
        rw [hc.state, counterBytes_eq, hctr, ctrBytes_mod, block_hash]
      have hb : (Keccak256 (Keccak256 seed ++ ctrBytes ((a + offset) / 32))).take w = streamOut Keccak256 seed (a + offset) w := by
        have := Hash.block_slice (H := Keccak256) (seed := seed) Keccak256_length (a + offset) w (by omega)
        rw [hal, List.drop_zero] at this
        exact this
      rw [hbk, hb]
      have hat : CAt seed (a + (offset + w)) { c with outBuf := Keccak256 (Keccak256 seed ++ ctrBytes ((a + offset) / 32)), outLen := 32, outPos := w, counter := (c.counter + 1) % 2 ^ 64 } := by
        refine ⟨hc.fin, hc.state, ?_, ?_⟩
        · show (c.counter + 1) % 2 ^ 64 = _
          rw [hctr, Nat.mod_add_mod, show (a + (offset + w) + 31) / 32 = (a + offset) / 32 + 1 by omega]
        · by_cases h32 : w = 32
          · rw [if_pos (by omega)]; simp [h32]
          · rw [if_neg (by omega)]
            refine ⟨rfl, by show w = _; omega, ?_⟩
            show Keccak256 (Keccak256 seed ++ ctrBytes ((a + offset) / 32)) = _
            rw [show (a + (offset + w)) / 32 = (a + offset) / 32 by omega]
      obtain ⟨c', h1, h2⟩ := ih _ (offset + w) (out ++ streamOut Keccak256 seed (a + offset) w) hat (by omega) (by omega) (by omega)
      refine ⟨c', ?_, h2⟩
      rw [h1, List.append_assoc, ← Nat.add_assoc, ← Hash.streamOut_add, show w + (len - (offset + w)) = len - offset by omega]
    · rw [if_neg hlt]
      have : offset = len := by omega
      subst this
      exact ⟨c, by simp [streamOut], hc⟩

theorem cExtract_ok (seed : Bytes) (a len : Nat) (c : Prng) (hc : CAt seed a c) :
    ∃ c', prngExtract c len = (0, c', streamOut Keccak256 seed a len) ∧ CAt seed (a + len) c' := by
  unfold prngExtract
  rw [hc.fin]
  simp only [Bool.not_true, Bool.false_eq_true, if_false]
  by_cases h0 : a % 32 = 0
  · have hr := hc.rest; rw [if_pos h0] at hr
    rw [if_neg hr]
    obtain ⟨c', h1, h2⟩ := cExtractLoop_ok seed a len len c 0 [] hc (Or.inl h0) (Nat.zero_le _) (Nat.le_refl _)
    refine ⟨c', ?_, h2⟩
    rw [h1]; simp
  · have hr := hc.rest; rw [if_neg h0] at hr
    obtain ⟨h1, h2, h3⟩ := hr
    have hctr := hc.counter
    rw [if_pos (by omega), h1, h2, h3]
    obtain ⟨w, hw⟩ : ∃ w, w = if len < 32 - a % 32 then len else 32 - a % 32 := ⟨_, rfl⟩
    have hw2 : w = min len (32 - a % 32) := by rw [hw]; split <;> omega
    rw [← hw, Hash.block_slice Keccak256_length a w (by omega)]
    have hat : CAt seed (a + w) ⟨c.buffer, c.state, c.bufferLen, c.counter, true, Keccak256 (Keccak256 seed ++ ctrBytes (a / 32)), a % 32 + w, 32⟩ := by
      refine ⟨rfl, hc.state, ?_, ?_⟩
      · show c.counter = _
        rw [hctr, show (a + w + 31) / 32 = (a + 31) / 32 by omega]
      · by_cases hz : (a + w) % 32 = 0
        · rw [if_pos hz]
          show ¬ 32 > a % 32 + w
          omega
        · rw [if_neg hz]
          exact ⟨rfl, by show a % 32 + w = _; omega, by rw [show (a + w) / 32 = a / 32 by omega]⟩
    by_cases hwl : w = len
    · rw [if_pos hwl]
      subst hwl
      exact ⟨_, rfl, hat⟩
    · rw [if_neg hwl]
      obtain ⟨c', k1, k2⟩ := cExtractLoop_ok seed a len len _ w (streamOut Keccak256 seed a w) hat (by omega) (by omega) (by omega)
      refine ⟨c', ?_, k2⟩
      rw [k1, ← Hash.streamOut_add, show w + (len - w) = len by omega]

/-- The data injected so far. -/
structure Filled (d : Bytes) (c : Prng) : Prop where
  len : c.buffer.length = 4096
  blen : c.bufferLen = d.length
  le : d.length ≤ 4096
  fin : c.finalized = false
  counter : c.counter = 0
  buf : c.buffer.take c.bufferLen = d

theorem filled_init : Filled [] prngInit := ⟨List.length_replicate, rfl, Nat.zero_le _, rfl, rfl, rfl⟩

/-- **C80**, `inject`: as long as the total stays within 4096 bytes the data is appended and the code is 0; otherwise the code is −3 and nothing changes. -/
theorem C80_inject (d data : Bytes) (c : Prng) (hc : Filled d c) :
    (d.length + data.length ≤ 4096 → (prngInject c data).1 = 0 ∧ Filled (d ++ data) (prngInject c data).2) ∧
    (4096 < d.length + data.length → prngInject c data = (-3, c)) := by
  unfold prngInject
  rw [hc.fin]
  simp only [Bool.false_eq_true, if_false]
  have hbl := hc.blen
  have hl := hc.len
  constructor
  · intro h
    rw [if_neg (by omega)]
    refine ⟨rfl, ?_, ?_, by simpa using h, rfl, hc.counter, ?_⟩
    · show (blit _ _ _).length = _
      rw [blit_length _ _ _ (by omega), hl]
    · show c.bufferLen + data.length = _
      rw [hbl, List.length_append]
    · show (blit c.buffer c.bufferLen data).take (c.bufferLen + data.length) = _
      rw [blit_take _ _ _ (by omega), hc.buf]
  · intro h
    rw [if_pos (by omega)]

theorem flip_ok (d : Bytes) (c : Prng) (hc : Filled d c) : (prngFlip c).1 = 0 ∧ CAt d 0 (prngFlip c).2 := by
  have hs : keccak256 true (c.buffer.take c.bufferLen) = Keccak256 d := by
    have := hc.le
    rw [hc.buf]
    exact keccak256_short _ _ (by omega)
  have e : prngFlip c = (0, { c with state := Keccak256 d, finalized := true, outPos := 0, outLen := 0 }) := by
    unfold prngFlip
    rw [hc.fin, if_neg Bool.false_ne_true, hs]
  rw [e]
  refine ⟨rfl, ⟨rfl, rfl, hc.counter, ?_⟩⟩
  rw [if_pos (Nat.zero_mod 32)]
  exact Nat.lt_irrefl 0

/-- Calls of `inject` one after the other, codes ignored (as the callers in nist16.c and epervier16.c do). -/
def injectIgnoring (c : Prng) : List Bytes → Prng
  | [] => c
  | d :: ds => injectIgnoring (prngInject c d).2 ds

/-- Specification: what is kept of a sequence of injected strings: each is taken if it still fits into 4096 bytes and dropped otherwise. -/
def kept (have_ : Bytes) : List Bytes → Bytes
  | [] => have_
  | d :: ds => if have_.length + d.length ≤ 4096 then kept (have_ ++ d) ds else kept have_ ds

theorem injectIgnoring_ok (ds : List Bytes) (d : Bytes) (c : Prng) (hc : Filled d c) : Filled (kept d ds) (injectIgnoring c ds) := by
  induction ds generalizing d c with
  | nil => exact hc
  | cons x ds ih =>
    unfold injectIgnoring kept
    by_cases h : d.length + x.length ≤ 4096
    · rw [if_pos h]; exact ih _ _ ((C80_inject d x c hc).1 h).2
    · rw [if_neg h]
      have := (C80_inject d x c hc).2 (by omega)
      rw [this]
      exact ih _ _ hc

theorem kept_fits (ds : List Bytes) (d : Bytes) (h : d.length + ds.flatten.length ≤ 4096) : kept d ds = d ++ ds.flatten := by
  induction ds generalizing d with
  | nil => simp [kept]
  | cons x ds ih =>
    rw [List.flatten_cons, List.length_append] at h
    unfold kept
    rw [if_pos (by omega), ih _ (by rw [List.length_append]; omega), List.flatten_cons, List.append_assoc]

/-- Successive `extract` calls. -/
def extracts (c : Prng) : List Nat → List Bytes
  | [] => []
  | n :: ns => let r := prngExtract c n; r.2.2 :: extracts r.2.1 ns

theorem extracts_ok (seed : Bytes) (ns : List Nat) (a : Nat) (c : Prng) (hc : CAt seed a c) : extracts c ns = Keccak.slices (streamOut Keccak256 seed) a ns := by
  induction ns generalizing a c with
  | nil => rfl
  | cons n ns ih =>
    obtain ⟨c', h1, h2⟩ := cExtract_ok seed a n c hc
    unfold extracts
    rw [h1]
    show streamOut Keccak256 seed a n :: extracts c' ns = _
    rw [ih _ _ h2]
    rfl

/-- **C80**, the stream: after `init`, any sequence of `inject` calls and `flip`, successive reads of any lengths return consecutive pieces of one stream, that of the
data that was kept: byte `k` is byte `k mod 32` of Keccak-256(Keccak-256(data) ‖ counter `k / 32` on eight bytes, modulo 2^64). -/
theorem C80_stream (ds : List Bytes) (ns : List Nat) :
    extracts (prngFlip (injectIgnoring prngInit ds)).2 ns = Keccak.slices (streamOut Keccak256 (kept [] ds)) 0 ns :=
  extracts_ok _ ns 0 _ (flip_ok _ _ (injectIgnoring_ok ds [] prngInit filled_init)).2

/-- **C80**: for at most 4096 bytes of input the C generator and the Python `KeccakPRNG` give the same bytes. -/
theorem C80_python_stream (ds : List Bytes) (ns : List Nat) (h : ds.flatten.length ≤ 4096) (hn : ns.sum ≤ 32 * 2 ^ 64) :
    (do let c ← Hash.injectAll 4096 (Prng.new 4096) ds; let c ← c.flip Keccak256; Hash.extractAll Keccak256 c ns) = .ok (extracts (prngFlip (injectIgnoring prngInit ds)).2 ns) := by
  rw [Hash.C44_stream Keccak256_length 4096 ds h ns hn, C80_stream, kept_fits ds [] (by simpa using h), List.nil_append]

/-- **C80**, misuse: after `flip`, `inject` and `flip` return −2 and change nothing; before it, `extract` returns −2. -/
theorem C80_misuse (ds : List Bytes) (data : Bytes) (n : Nat) :
    prngInject (prngFlip (injectIgnoring prngInit ds)).2 data = (-2, (prngFlip (injectIgnoring prngInit ds)).2) ∧
    prngFlip (prngFlip (injectIgnoring prngInit ds)).2 = (-2, (prngFlip (injectIgnoring prngInit ds)).2) ∧
    prngExtract (injectIgnoring prngInit ds) n = (-2, injectIgnoring prngInit ds, []) := by
  have hf := injectIgnoring_ok ds [] prngInit filled_init
  have hc := (flip_ok _ _ hf).2
  refine ⟨?_, ?_, ?_⟩
  · unfold prngInject; rw [hc.fin]; rfl
  · rw [prngFlip, hc.fin]; rfl
  · unfold prngExtract; rw [hf.fin]; rfl

/-! ## Hash to point -/

theorem reduceWord_eq (fuel w : Nat) (h : w < 12289 * (fuel + 1)) : reduceWord fuel w = w % 12289 := by
  induction fuel generalizing w with
  | zero => rw [reduceWord, Nat.mod_eq_of_lt (by omega)]
  | succ fuel ih =>
    unfold reduceWord
    by_cases hw : w ≥ 12289
    · rw [if_pos hw, ih _ (by omega)]; omega
    · rw [if_neg hw]; omega

/-- What the loop needs of a generator: it stands in a stream of bytes, and reading gives the next two. -/
structure Reads {S : Type} (read : S → S × Bytes) (st : Nat → Nat) (at' : Nat → S → Prop) : Prop where
  step : ∀ k s, at' k s → (read s).2 = [st k, st (k + 1)] ∧ at' (k + 2) (read s).1
  byte : ∀ k, st k < 256

variable {S : Type} {read : S → S × Bytes} {st : Nat → Nat} {at' : Nat → S → Prop}

theorem word_or (a b : Nat) (hb : b < 256) : (a <<< 8) ||| b = 256 * a + b := by
  rw [Nat.shiftLeft_eq, Nat.mul_comm, show (256 : Nat) = 2 ^ 8 from rfl]
  exact (Nat.two_pow_add_eq_or_of_lt hb a).symm

theorem pointLoop_sound (R : Reads read st at') (fuel t : Nat) (s : S) (left : Nat) (x out : List Nat) (hs : at' (2 * t) s) (hx : x = accepted st t)
    (h : pointLoop read fuel s left x = some out) : ∃ T, accepted st T = out ∧ out.length = x.length + left := by
  induction fuel generalizing t s left x with
  | zero => cases h
  | succ fuel ih =>
    unfold pointLoop at h
    by_cases hl : left > 0
    · rw [if_pos hl] at h
      obtain ⟨e1, e2⟩ := R.step _ _ hs
      dsimp only at h
      rw [e1] at h
      simp only [List.getD_cons_zero, List.getD_cons_succ] at h
      rw [word_or _ _ (R.byte _)] at h
      have hacc := Hash.accepted_succ st t
      rw [show word16 st t = 256 * st (2 * t) + st (2 * t + 1) from rfl] at hacc
      by_cases hw : 256 * st (2 * t) + st (2 * t + 1) < 61445
      · rw [if_pos hw, reduceWord_eq _ _ (by omega)] at h
        rw [if_pos hw, ← hx] at hacc
        obtain ⟨T, k1, k2⟩ := ih (t + 1) _ _ _ e2 hacc.symm h
        exact ⟨T, k1, by rw [k2, List.length_append, List.length_singleton]; omega⟩
      · rw [if_neg hw] at h
        rw [if_neg hw, List.append_nil, ← hx] at hacc
        exact ih (t + 1) _ _ _ e2 hacc.symm h
    · rw [if_neg hl] at h
      cases h
      exact ⟨t, hx.symm, by omega⟩

theorem pointLoop_complete (R : Reads read st at') (T : Nat) (out : List Nat) (hT : accepted st T = out) (fuel t : Nat) (s : S) (left : Nat) (x : List Nat)
    (hs : at' (2 * t) s) (hx : x = accepted st t) (ho : out.length = x.length + left) (htT : t ≤ T) (hf : T < t + fuel) :
    pointLoop read fuel s left x = some out := by
  induction fuel generalizing t s left x with
  | zero => omega
  | succ fuel ih =>
    unfold pointLoop
    by_cases hl : left > 0
    · rw [if_pos hl]
      have htT' : t < T := by
        refine Nat.lt_of_le_of_ne htT fun e => ?_
        subst e
        rw [← hx] at hT
        rw [← hT] at ho
        omega
      obtain ⟨e1, e2⟩ := R.step _ _ hs
      dsimp only
      rw [e1]
      simp only [List.getD_cons_zero, List.getD_cons_succ]
      rw [word_or _ _ (R.byte _)]
      have hacc := Hash.accepted_succ st t
      rw [show word16 st t = 256 * st (2 * t) + st (2 * t + 1) from rfl] at hacc
      by_cases hw : 256 * st (2 * t) + st (2 * t + 1) < 61445
      · rw [if_pos hw, reduceWord_eq _ _ (by omega)]
        rw [if_pos hw, ← hx] at hacc
        exact ih (t + 1) _ _ _ e2 hacc.symm (by rw [ho, List.length_append, List.length_singleton]; omega) (by omega) (by omega)
      · rw [if_neg hw]
        rw [if_neg hw, List.append_nil, ← hx] at hacc
        exact ih (t + 1) _ _ _ e2 hacc.symm ho (by omega) (by omega)
    · rw [if_neg hl]
      have := (Hash.accepted_prefix st t T htT)
      rw [hT, ← hx] at this
      rw [this.eq_of_length (by omega)]

theorem pointLoop_iff (R : Reads read st at') (s : S) (hs : at' 0 s) (n : Nat) (out : List Nat) :
    (∃ fuel, pointLoop read fuel s n [] = some out) ↔ IsPoint st n out := by
  constructor
  · rintro ⟨fuel, h⟩
    obtain ⟨T, k1, k2⟩ := pointLoop_sound R fuel 0 s n [] out hs rfl h
    exact ⟨T, k1, by simpa using k2⟩
  · rintro ⟨T, k1, k2⟩
    exact ⟨T + 1, pointLoop_complete R T out k1 (T + 1) 0 s n [] hs rfl (by simpa using k2) (Nat.zero_le _) (by omega)⟩

theorem reads_keccak (seed : Bytes) : Reads (fun c => (prngExtract c 2).2) (streamByte Keccak256 seed) (CAt seed) := by
  constructor
  · intro k s hs
    obtain ⟨c', h1, h2⟩ := cExtract_ok seed k 2 s hs
    rw [h1]
    exact ⟨rfl, h2⟩
  · intro k
    unfold streamByte
    rw [List.getD_eq_getElem?_getD]
    cases h : (Keccak256 (Keccak256 seed ++ ctrBytes (k / 32)))[k % 32]? with
    | none => decide
    | some v => exact Keccak256_bytes _ v (List.mem_of_getElem? h)

/-- The call sequence `init; inject …; flip; keccak_hash_to_point_vartime` returns `out`. -/
def PointReturns (logn : Nat) (ds : List Bytes) (out : List Nat) : Prop :=
  ∃ fuel, keccakHashToPoint (prngFlip (injectIgnoring prngInit ds)).2 logn fuel = some out

/-- **C80**, hash to point: the result is the point of the stream of the kept data, whatever was injected. -/
theorem C80_hash_to_point (logn : Nat) (ds : List Bytes) (out : List Nat) :
    PointReturns logn ds out ↔ IsPoint (streamByte Keccak256 (kept [] ds)) (2 ^ logn) out :=
  pointLoop_iff (reads_keccak _) _ (flip_ok _ _ (injectIgnoring_ok ds [] prngInit filled_init)).2 _ _

/-- **C80**, C = contract: for a nonce and a message of at most 4096 bytes together, the C code and the contract hash to the same point. -/
theorem C80_contract (salt message : Bytes) (h : salt.length + message.length ≤ 4096) (out : List Nat) :
    PointReturns 9 [salt, message] out ↔ Hash.EvmReturns Keccak256 salt message out := by
  rw [C80_hash_to_point, kept_fits _ [] (by simpa using h)]
  unfold Hash.EvmReturns
  rw [Hash.evm_iff Keccak256_length Keccak256_bytes]
  simp [IsPoint]

/-- **C80**, Python → C: whenever the Python `hash_to_point` with `KeccakPRNG` returns a point, the C code returns the same one (in every dimension). -/
theorem C80_python_point (logn : Nat) (salt message : Bytes) (out : List Nat)
    (h : Hash.Returns (Hash.keccakPrng Keccak256) (2 ^ logn) message salt out) : PointReturns logn [salt, message] out := by
  obtain ⟨h1, T, h2, h3, _⟩ := (Hash.C22_keccak Keccak256 Keccak256_length _ message salt out).1 h
  rw [C80_hash_to_point, kept_fits _ [] (by simpa using h1)]
  exact ⟨T, by simpa using h2, h3⟩

/-! ## Instances -/

set_option maxRecDepth 100000 in
/-- Keccak-256 of the empty string begins with c5 d2 46 01. -/
example : (keccak256 true []).take 4 = [0xc5, 0xd2, 0x46, 0x01] := by decide +kernel

example : ∀ p ∈ [(true, [1, 2, 3]), (false, List.replicate 300 7)], p.2.length < 65536 := by decide +kernel

end Verif.CRef
