import Verif.CRef.PrngProps

/-! # C95: the generators of C and Python, `prng_get_bytes`, the seeds of successive attempts -/

namespace Verif.CRef.Prng

open Verif.Rng (State words rfcBlock chachaInput counter0 chunk keyByte seedWord ChaCha)

/-! ## C and Python -/

/-- What the samplers draw: 72 bits (`basesampler`, `gaussian0_sampler`) or one byte. -/
inductive Draw
  | base
  | byte
deriving DecidableEq, Repr

/-- The draws with the C generator: 72 bits are a 64-bit request and a byte, sign.c 1023-1027. -/
def draws (p : Prng) : List Draw → List Nat × Prng
  | [] => ([], p)
  | .base :: ds =>
    let (lo, p) := getU64 p
    let (hi, p) := getU8 p
    let (vs, p) := draws p ds
    ((lo + hi <<< 64) :: vs, p)
  | .byte :: ds =>
    let (v, p) := getU8 p
    let (vs, p) := draws p ds
    (v :: vs, p)

/-- The draws with the Python generator: `randombytes(9)` and `randombytes(1)`, samplerz.py 72, 115, 146. -/
def pyRequest : Draw → Nat
  | .base => 9
  | .byte => 1

/-- No 72-bit draw starts at position 503 of a chunk (exactly nine unused bytes); `pos` is the present position. -/
def Avoids : Nat → List Draw → Prop
  | _, [] => True
  | pos, .base :: ds => pos ≠ 503 ∧ Avoids (if pos < 503 then pos + 9 else 9) ds
  | pos, .byte :: ds => Avoids (if pos = 511 then 0 else pos + 1) ds

/-- The places of the draws with the C generator. -/
def dplan : Nat → Nat → List Draw → List (Nat × Nat × Nat)
  | _, _, [] => []
  | j, pos, .base :: ds => if pos < 503 then (j, pos, 9) :: dplan j (pos + 9) ds else (j + 1, 0, 9) :: dplan (j + 1) 9 ds
  | j, pos, .byte :: ds => (j, pos, 1) :: if pos = 511 then dplan (j + 1) 0 ds else dplan j (pos + 1) ds

theorem valueAt_join (src : Bytes) (j pos : ℕ) (h : pos < 503) : valueAt src (j, pos, 8) + valueAt src (j, pos + 8, 1) <<< 64 = valueAt src (j, pos, 9) := by
  unfold valueAt
  rw [take_drop_eq _ _ _ (by rw [Rng.chunk_length]; show pos + 8 ≤ 512; omega), take_drop_eq _ _ _ (by rw [Rng.chunk_length]; show pos + 8 + 1 ≤ 512; omega),
    take_drop_eq _ _ _ (by rw [Rng.chunk_length]; show pos + 9 ≤ 512; omega)]
  simp only [List.range, List.range.loop, List.map_cons, List.map_nil, Rng.leNat, List.foldr_cons, List.foldr_nil, Nat.shiftLeft_eq, Nat.add_zero]
  ring_nf

theorem draws_spec (src : Bytes) (ds : List Draw) (p : Prng) (j pos : ℕ) (h : At p src j pos) : (draws p ds).1 = (dplan j pos ds).map (valueAt src) := by
  induction ds generalizing p j pos with
  | nil => rfl
  | cons d ds ih =>
    cases d with
    | base =>
      show ((getU64 p).1 + (getU8 (getU64 p).2).1 <<< 64) :: (draws (getU8 (getU64 p).2).2 ds).1 = _
      have h64 := getU64_spec p src j pos h
      unfold dplan
      by_cases c : pos < 503
      · rw [if_pos c] at h64 ⊢
        obtain ⟨t1, t2⟩ := getU8_spec _ src _ _ h64.2
        rw [if_neg (by omega)] at t2
        rw [List.map_cons, ih _ _ _ t2, h64.1, t1, valueAt_join _ _ _ c]
      · rw [if_neg c] at h64 ⊢
        obtain ⟨t1, t2⟩ := getU8_spec _ src _ _ h64.2
        rw [if_neg (by norm_num)] at t2
        rw [List.map_cons, ih _ _ _ t2, h64.1, t1]
        exact congrArg₂ List.cons (valueAt_join src (j + 1) 0 (by norm_num)) rfl
    | byte =>
      obtain ⟨t1, t2⟩ := getU8_spec p src j pos h
      show (getU8 p).1 :: (draws (getU8 p).2 ds).1 = _
      unfold dplan
      rw [List.map_cons, ← t1]
      by_cases c : pos = 511
      · rw [if_pos c] at t2 ⊢
        rw [← ih _ _ _ t2]
      · rw [if_neg c] at t2 ⊢
        rw [← ih _ _ _ t2]

theorem dplan_plan (ds : List Draw) (j pos next left : ℕ) (hp : pos < 512) (ha : Avoids pos ds)
    (hr : (pos = 0 ∧ next = j ∧ left = 0) ∨ (0 < pos ∧ next = j + 1 ∧ left = 512 - pos)) : dplan j pos ds = Rng.plan next left (ds.map pyRequest) := by
  induction ds generalizing j pos next left with
  | nil => rfl
  | cons d ds ih =>
    cases d with
    | base =>
      obtain ⟨ha1, ha2⟩ := ha
      rw [List.map_cons]
      unfold dplan Rng.plan
      show (if pos < 503 then (j, pos, 9) :: dplan j (pos + 9) ds else (j + 1, 0, 9) :: dplan (j + 1) 9 ds) =
        if 9 ≤ left then (next - 1, 512 - left, 9) :: Rng.plan next (left - 9) (ds.map pyRequest) else (next, 0, 9) :: Rng.plan (next + 1) (512 - 9) (ds.map pyRequest)
      by_cases c : pos < 503
      · rw [if_pos c] at ha2 ⊢
        rcases hr with ⟨r1, r2, r3⟩ | ⟨r1, r2, r3⟩
        · rw [if_neg (by omega), r1, r2, ih j (0 + 9) (j + 1) (512 - 9) (by norm_num) (by rw [r1] at ha2; exact ha2) (.inr ⟨by norm_num, rfl, by norm_num⟩)]
        · rw [if_pos (by omega), ih j (pos + 9) next (left - 9) (by omega) ha2 (.inr ⟨by omega, by omega, by omega⟩)]
          congr 2
          · omega
          · congr 1; omega
      · rw [if_neg c] at ha2 ⊢
        rcases hr with ⟨r1, r2, r3⟩ | ⟨r1, r2, r3⟩
        · omega
        · rw [if_neg (by omega), r2, ih (j + 1) 9 (j + 1 + 1) (512 - 9) (by norm_num) ha2 (.inr ⟨by norm_num, rfl, by norm_num⟩)]
    | byte =>
      have ha' : Avoids (if pos = 511 then 0 else pos + 1) ds := ha
      rw [List.map_cons]
      unfold dplan Rng.plan
      show ((j, pos, 1) :: if pos = 511 then dplan (j + 1) 0 ds else dplan j (pos + 1) ds) =
        if 1 ≤ left then (next - 1, 512 - left, 1) :: Rng.plan next (left - 1) (ds.map pyRequest) else (next, 0, 1) :: Rng.plan (next + 1) (512 - 1) (ds.map pyRequest)
      rcases hr with ⟨r1, r2, r3⟩ | ⟨r1, r2, r3⟩
      · have c : ¬ pos = 511 := by omega
        rw [if_neg c] at ha' ⊢
        rw [if_neg (by omega), r1, r2, ih j (0 + 1) (j + 1) (512 - 1) (by norm_num) (by rw [r1] at ha'; exact ha') (.inr ⟨by norm_num, rfl, by norm_num⟩)]
      · have e : (j, pos, 1) = (next - 1, 512 - left, 1) := by
          rw [show next - 1 = j by omega, show 512 - left = pos by omega]
        by_cases c : pos = 511
        · rw [if_pos c] at ha' ⊢
          rw [if_pos (by omega), e, ih (j + 1) 0 next (left - 1) (by norm_num) ha' (.inl ⟨rfl, by omega, by omega⟩)]
        · rw [if_neg c] at ha' ⊢
          rw [if_pos (by omega), e, ih j (pos + 1) next (left - 1) (by omega) ha' (.inr ⟨by omega, by omega, by omega⟩)]

/-- **C95**: from the same 56-byte seed the C and the Python samplers draw the same numbers, as long as no 72-bit draw starts with exactly nine bytes left in the chunk and the block counter
does not pass its end. -/
theorem C95_python_partial (buf tmp : Bytes) (hb : buf.length = 512) (h : IsBytes tmp) (ds : List Draw) (ha : Avoids 0 ds) (hn : counter0 tmp + 8 * ds.length ≤ 2 ^ 64) :
    (draws (initWith buf tmp) ds).1 = ((ChaCha.init tmp).run (ds.map pyRequest)).1.map Rng.leNat := by
  obtain ⟨h1, h2, h3⟩ := C95_init buf tmp hb h
  rw [draws_spec tmp ds _ 0 0 ⟨h1, h2, h3, by norm_num⟩, Rng.C48_stream tmp h _ (by rwa [List.length_map]), List.map_map, dplan_plan ds 0 0 0 0 (by norm_num) ha (.inl ⟨rfl, rfl, rfl⟩)]
  rfl

/-- A history that reaches position 503: 55 draws of 72 bits, eight bytes, and a further 72 bits. -/
def history503 : List Draw := List.replicate 55 .base ++ List.replicate 8 .byte ++ [.base]

theorem valueAt_mod (src : Bytes) (j pos k : ℕ) (h : pos + (k + 1) ≤ 512) : valueAt src (j, pos, k + 1) % 256 = keyByte src j pos := by
  unfold valueAt
  rw [take_drop_eq _ _ _ (by rw [Rng.chunk_length]; exact h), List.range_succ_eq_map, List.map_cons]
  show ((chunk src j).getD (pos + 0) 0 + 256 * _) % 256 = _
  have e : (chunk src j).getD (pos + 0) 0 = keyByte src j pos := by
    rw [Nat.add_zero, List.getD_eq_getElem?_getD, List.getElem?_eq_getElem (by rw [Rng.chunk_length]; omega)]
    simp [chunk]
  rw [Nat.add_mul_mod_self_left, e]
  unfold keyByte
  rw [Nat.mod_mod]

set_option maxRecDepth 100000 in
/-- **C95** fails without that condition: with nine bytes left, Python uses them and C drops them. -/
theorem C95_python_false (buf : Bytes) (hb : buf.length = 512) : (draws (initWith buf (List.range 56)) history503).1 ≠
    ((ChaCha.init (List.range 56)).run (history503.map pyRequest)).1.map Rng.leNat := by
  have h : IsBytes (List.range 56) := by decide
  obtain ⟨h1, h2, h3⟩ := C95_init buf (List.range 56) hb h
  have hn : counter0 (List.range 56) + 8 * (history503.map pyRequest).length ≤ 2 ^ 64 := by decide +kernel
  rw [draws_spec _ history503 _ 0 0 ⟨h1, h2, h3, by norm_num⟩, Rng.C48_stream _ h _ hn, List.map_map]
  intro he
  have e1 : (dplan 0 0 history503)[63]? = some (1, 0, 9) := by decide +kernel
  have e2 : (Rng.plan 0 0 (history503.map pyRequest))[63]? = some (0, 503, 9) := by decide +kernel
  have := congrArg (fun l : List ℕ => (l[63]?).map (· % 256)) he
  simp only [List.getElem?_map, e1, e2, Option.map_some, Option.some.injEq] at this
  have v1 := valueAt_mod (List.range 56) 1 0 8 (by norm_num)
  have v2 := valueAt_mod (List.range 56) 0 503 8 (by norm_num)
  rw [v1, show ((Rng.leNat ∘ fun x : ℕ × ℕ × ℕ => ((chunk (List.range 56) x.1).drop x.2.1).take x.2.2) (0, 503, 9)) = valueAt (List.range 56) (0, 503, 8 + 1) from rfl, v2] at this
  revert this
  decide +kernel

/-! ## `prng_get_bytes` -/

theorem getBytes_short (p : Prng) (n : ℕ) (hn : 0 < n) (hp : p.ptr + n < 512) : getBytes p n = (p.buf.take n, { p with ptr := p.ptr + n }) := by
  obtain ⟨m, rfl⟩ : ∃ m, n = m + 1 := ⟨n - 1, by omega⟩
  unfold getBytes getBytesLoop
  have h1 : 512 - p.ptr > m + 1 := by omega
  have h2 : ¬ p.ptr + (m + 1) = 512 := by omega
  simp only [if_pos (Nat.succ_pos m : m + 1 > 0), if_pos h1, h2, if_false, List.nil_append, Nat.sub_self]
  cases m <;> rfl

attribute [local irreducible] initWith refill in
/-- **C95**: `prng_get_bytes` is wrong: it copies from the start of the buffer, not from the read position, so two successive requests within a chunk return the same bytes. -/
theorem C95_get_bytes_false (buf tmp : Bytes) (hb : buf.length = 512) (h : IsBytes tmp) (a b : ℕ) (ha : 0 < a) (hab : 0 < b) (hs : a + b < 512) :
    let r1 := getBytes (initWith buf tmp) a
    let r2 := getBytes r1.2 b
    r1.1 = (chunk tmp 0).take a ∧ r2.1 = (chunk tmp 0).take b := by
  obtain ⟨h1, h2, h3⟩ := C95_init buf tmp hb h
  simp only
  rw [getBytes_short _ a ha (by rw [h3]; omega)]
  refine ⟨by rw [← h2], ?_⟩
  rw [getBytes_short _ b hab (by show (initWith buf tmp).ptr + a + b < 512; rw [h3]; omega)]
  show (initWith buf tmp).buf.take b = _
  rw [h2]

/-! ## The seeds of successive attempts -/

/-- One generator per attempt of the loop in `sign_tree` and `sign_dyn`, sign.c 1222-1226, 1264-1268; the entries of `bufs` are the uninitialised buffers. -/
def attempts : List Bytes → Shake.Ctx → List Prng
  | [], _ => []
  | buf :: bufs, c => (init buf c).1 :: attempts bufs (init buf c).2

/-- **C95**: attempt number `k` of a signature uses the generator seeded with bytes `56 k` to `56 k + 55` of SHAKE256 of what was injected into the context. -/
theorem C95_attempts (pieces : List Bytes) (h : ∀ p ∈ pieces, IsBytes p) (bufs : List Bytes) :
    attempts bufs (shakeFlipped pieces) = (bufs.zipIdx).map fun x => initWith x.1 (Keccak.Spec.shake256 pieces.flatten (56 * x.2) 56) := by
  have key : ∀ (bufs : List Bytes) (k : ℕ) (c : Shake.Ctx), Shake.At (shakeState pieces.flatten) (56 * k) c →
      attempts bufs c = (bufs.zipIdx k).map fun x => initWith x.1 (Keccak.Spec.shake256 pieces.flatten (56 * x.2) 56) := by
    intro bufs
    induction bufs with
    | nil => intros; rfl
    | cons b bufs ih =>
      intro k c hc
      obtain ⟨e1, e2⟩ := extract_at _ _ 56 c hc
      rw [List.zipIdx_cons, List.map_cons]
      have : attempts bufs (init b c).2 = _ := ih (k + 1) _ (by rw [Nat.mul_add]; exact e2)
      show initWith b (Shake.extract c 56).2 :: attempts bufs (init b c).2 = _
      rw [this, e1]
  exact key bufs 0 _ (flipped_at pieces h)

/-! ## Instances -/

example : (List.replicate 512 0 : Bytes).length = 512 ∧ IsBytes (List.range 56) := ⟨List.length_replicate, by decide⟩
/-- Fifty iterations of the sampler (72 bits, a sign byte, a comparison byte) stay clear of position 503; one that needs eight comparison bytes at the wrong moment does not. -/
example : Avoids 0 ((List.replicate 3 [Draw.base, .byte, .byte]).flatten) := by simp [Avoids, List.replicate]
example : cplan 0 500 [.u64, .u64, .u8] = [(0, 500, 8), (1, 0, 8), (1, 8, 1)] := by decide
example : cplan 0 511 [.u8, .u8] = [(0, 511, 1), (1, 0, 1)] := by decide

end Verif.CRef.Prng
