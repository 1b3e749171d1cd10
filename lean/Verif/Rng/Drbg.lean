import Verif.Rng.Props
import Mathlib.Data.List.Induction
import Mathlib.Data.List.Nodup
import Mathlib.Data.Nat.ModEq

/-! # C49: AES256_CTR_DRBG, for every block cipher `E` with 16-byte blocks -/

namespace Verif.Rng

/-- `E` maps to 16-byte blocks. -/
def Block (E : Bytes → Bytes → Bytes) : Prop := ∀ K b, (E K b).length = 16 ∧ IsBytes (E K b)

/-! ## Numbers and blocks -/

theorem be16_eq (x : ℕ) : be16 x = block16 x := rfl
theorem beNat_eq (b : Bytes) : beNat b = value b := rfl

theorem value_append (a b : Bytes) : value (a ++ b) = value a * 256 ^ b.length + value b := by
  have key : ∀ (b : Bytes) (s : ℕ), b.foldl (fun acc x => acc * 256 + x) s = s * 256 ^ b.length + value b := by
    intro b
    induction b with
    | nil => intro s; simp [value]
    | cons x b ih =>
      intro s
      unfold value
      rw [List.foldl_cons, ih, List.foldl_cons, ih, List.length_cons]
      ring
  unfold value
  rw [List.foldl_append, key]
  rfl

theorem value_lt (b : Bytes) (h : IsBytes b) : value b < 256 ^ b.length := by
  induction b using List.reverseRecOn with
  | nil => simp [value]
  | append_singleton l x ih =>
    have hx : x < 256 := h x (by simp)
    have := ih fun y hy => h y (List.mem_append_left _ hy)
    rw [value_append, List.length_append, pow_add]
    simp [value] at *
    omega

theorem digits (x n : ℕ) : value ((List.range n).map fun i => x / 256 ^ (n - 1 - i) % 256) = x % 256 ^ n := by
  induction n generalizing x with
  | zero => simp [value, Nat.mod_one]
  | succ n ih =>
    rw [List.range_succ, List.map_append, value_append]
    have e : ((List.range n).map fun i => x / 256 ^ (n + 1 - 1 - i) % 256) = (List.range n).map fun i => x / 256 / 256 ^ (n - 1 - i) % 256 := by
      apply List.map_congr_left
      intro i hi
      rw [List.mem_range] at hi
      rw [show n + 1 - 1 - i = (n - 1 - i) + 1 by omega, pow_succ', Nat.div_div_eq_div_mul]
    rw [e, ih]
    simp [value]
    rw [pow_succ', Nat.mod_mul]
    ring

theorem value_block16 (x : ℕ) (h : x < 2 ^ 128) : value (block16 x) = x := by
  have := digits x 16
  rw [show 256 ^ 16 = 2 ^ 128 by norm_num, Nat.mod_eq_of_lt h] at this
  exact this

theorem block16_value (b : Bytes) (h : IsBytes b) (hl : b.length = 16) : block16 (value b) = b := by
  have key : ∀ n (b : Bytes), IsBytes b → b.length = n → ((List.range n).map fun i => value b / 256 ^ (n - 1 - i) % 256) = b := by
    intro n
    induction n with
    | zero => intro b _ hl; rw [List.eq_nil_of_length_eq_zero hl]; rfl
    | succ n ih =>
      intro b hb hl
      obtain ⟨c, x, rfl⟩ : ∃ c x, b = c ++ [x] := by
        have : b ≠ [] := by intro h; rw [h] at hl; simp at hl
        exact ⟨b.dropLast, b.getLast this, (List.dropLast_concat_getLast this).symm⟩
      have hx : x < 256 := hb x (by simp)
      have hv : value (c ++ [x]) = value c * 256 + x := by rw [value_append]; simp [value]
      rw [List.range_succ, List.map_append]
      congr 1
      · rw [List.length_append, List.length_singleton] at hl
        rw [← ih c (fun y hy => hb y (List.mem_append_left _ hy)) (by omega)]
        apply List.map_congr_left
        intro i hi
        rw [List.mem_range] at hi
        rw [ih c (fun y hy => hb y (List.mem_append_left _ hy)) (by omega), hv, show n + 1 - 1 - i = (n - 1 - i) + 1 by omega, pow_succ', ← Nat.div_div_eq_div_mul]
        congr 2; omega
      · simp only [List.map_cons, List.map_nil]
        rw [hv, show n + 1 - 1 - n = 0 by omega, pow_zero, Nat.div_one]
        congr 1; omega
  exact key 16 b h hl

theorem isBytes_block16 (x : ℕ) : IsBytes (block16 x) := by
  intro y hy
  unfold block16 at hy
  obtain ⟨i, _, rfl⟩ := List.mem_map.1 hy
  exact Nat.mod_lt _ (by norm_num)

theorem length_block16 (x : ℕ) : (block16 x).length = 16 := by simp [block16]

theorem incr_block16 (x : ℕ) (hx : x < 2 ^ 128) : incr (block16 x) = block16 ((x + 1) % 2 ^ 128) := by
  unfold incr
  rw [beNat_eq, value_block16 x hx, be16_eq]

/-! ## The key stream -/

variable (E : Bytes → Bytes → Bytes)

theorem stream_succ (K : Bytes) (V m : ℕ) : stream E K V (m + 1) = stream E K V m ++ E K (block16 ((V + m + 1) % 2 ^ 128)) := by
  unfold stream
  rw [List.range_succ, List.flatMap_append]
  simp

theorem stream_length (hE : Block E) (K : Bytes) (V m : ℕ) : (stream E K V m).length = 16 * m := by
  induction m with
  | zero => rfl
  | succ m ih => rw [stream_succ, List.length_append, ih, (hE _ _).1]; ring

theorem stream_bytes (hE : Block E) (K : Bytes) (V m : ℕ) : IsBytes (stream E K V m) := by
  intro y hy
  unfold stream at hy
  obtain ⟨i, _, hi⟩ := List.mem_flatMap.1 hy
  exact (hE _ _).2 y hi

theorem genLoop_spec (hE : Block E) (K : Bytes) (num V : ℕ) (fuel m : ℕ) (hm : 16 * m < num + 16) (hf : num ≤ 16 * m + fuel) :
    genLoop E K num fuel (block16 ((V + m) % 2 ^ 128)) (stream E K V m) = (stream E K V ((num + 15) / 16), block16 ((V + (num + 15) / 16) % 2 ^ 128)) := by
  induction fuel generalizing m with
  | zero =>
    have : m = (num + 15) / 16 := by omega
    rw [genLoop, ← this]
  | succ fuel ih =>
    unfold genLoop
    rw [stream_length E hE]
    split
    · next h =>
      have e : incr (block16 ((V + m) % 2 ^ 128)) = block16 ((V + (m + 1)) % 2 ^ 128) := by
        rw [incr_block16 _ (Nat.mod_lt _ (by norm_num)), Nat.mod_add_mod]
        rfl
      simp only
      rw [e, ← Nat.add_assoc, ← stream_succ, Nat.add_assoc]
      exact ih (m + 1) (by omega) (by omega)
    · next h =>
      have : m = (num + 15) / 16 := by omega
      rw [← this]

/-! ## States -/

/-- The object holds the working state `w`. -/
def Holds (d : Drbg) (w : Work) : Prop := d.key = w.K ∧ d.V = block16 w.V ∧ w.V < 2 ^ 128 ∧ d.reseedCtr = w.ctr

theorem isBytes_xor (a b : Bytes) (ha : IsBytes a) (hb : IsBytes b) : IsBytes (List.zipWith (· ^^^ ·) a b) := by
  intro y hy
  rw [List.mem_iff_getElem] at hy
  obtain ⟨i, hi, rfl⟩ := hy
  rw [List.getElem_zipWith]
  exact Nat.xor_lt_two_pow (n := 8) (ha _ (List.getElem_mem _)) (hb _ (List.getElem_mem _))

theorem update_holds (hE : Block E) (d : Drbg) (w : Work) (h : Holds d w) (data : Bytes) (hd : data.length = 48) (hb : IsBytes data) :
    Holds (d.update E data) (specUpdate E w data) ∧ (d.update E data).key.length = 32 := by
  obtain ⟨h1, h2, h3, h4⟩ := h
  have e1 : incr d.V = block16 ((w.V + 0 + 1) % 2 ^ 128) := by rw [h2, incr_block16 _ h3]
  have e2 : incr (incr d.V) = block16 ((w.V + 1 + 1) % 2 ^ 128) := by
    rw [e1, incr_block16 _ (Nat.mod_lt _ (by norm_num)), Nat.mod_add_mod]
  have e3 : incr (incr (incr d.V)) = block16 ((w.V + 2 + 1) % 2 ^ 128) := by
    rw [e2, incr_block16 _ (Nat.mod_lt _ (by norm_num)), Nat.mod_add_mod]
  have hs : stream E w.K w.V 3 = [] ++ E d.key (incr d.V) ++ E d.key (incr (incr d.V)) ++ E d.key (incr (incr (incr d.V))) := by
    rw [stream_succ, stream_succ, stream_succ, e3, e2, e1, h1]; rfl
  have hl := stream_length E hE w.K w.V 3
  have hsb := stream_bytes E hE w.K w.V 3
  have hk : (d.update E data) = { d with key := (List.zipWith (· ^^^ ·) (stream E w.K w.V 3) data).take 32, V := (List.zipWith (· ^^^ ·) (stream E w.K w.V 3) data).drop 32 } := by
    unfold Drbg.update xorBytes
    simp only
    rw [← hs, List.take_of_length_le (l := stream E w.K w.V 3) (by omega)]
  have hx := isBytes_xor _ _ hsb hb
  have hxl : (List.zipWith (· ^^^ ·) (stream E w.K w.V 3) data).length = 48 := by rw [List.length_zipWith, hl, hd]; rfl
  have hdl : ((List.zipWith (· ^^^ ·) (stream E w.K w.V 3) data).drop 32).length = 16 := by rw [List.length_drop, hxl]
  have hdb : IsBytes ((List.zipWith (· ^^^ ·) (stream E w.K w.V 3) data).drop 32) := fun y hy => hx y (List.mem_of_mem_drop hy)
  rw [hk]
  refine ⟨⟨rfl, ?_, ?_, h4⟩, ?_⟩
  · show List.drop 32 _ = block16 (value _)
    rw [block16_value _ hdb hdl]
  · have := value_lt _ hdb
    rw [hdl] at this
    calc _ < 256 ^ 16 := this
      _ = 2 ^ 128 := by norm_num
  · show (List.take 32 _).length = 32
    rw [List.length_take, hxl]; rfl

theorem pad48_length (a : Bytes) (h : a.length ≤ 48) : (pad48 a).length = 48 := by
  unfold pad48; rw [List.length_append, List.length_replicate]; omega

theorem pad48_bytes (a : Bytes) (h : IsBytes a) : IsBytes (pad48 a) := by
  intro y hy
  rcases List.mem_append.1 hy with hy | hy
  · exact h y hy
  · rw [List.eq_of_mem_replicate hy]; norm_num

/-- **C49**: a seed of 48 bytes and a personalization string of at most 48 are accepted, anything else raises; the state is the one of CTR_DRBG_Instantiate. -/
theorem C49_init (hE : Block E) (seed pers : Bytes) (hs : IsBytes seed) (hp : IsBytes pers) :
    (seed.length = 48 ∧ pers.length ≤ 48 ∧ ∃ d, Drbg.init E seed pers = .ok d ∧ d.key.length = 32 ∧
      Holds d { specUpdate E ⟨List.replicate 32 0, 0, 0⟩ (List.zipWith (· ^^^ ·) seed (pers ++ List.replicate (48 - pers.length) 0)) with ctr := 1 }) ∨
    (¬ (seed.length = 48 ∧ pers.length ≤ 48) ∧ Drbg.init E seed pers = .error .valueError) := by
  unfold Drbg.init
  by_cases h1 : seed.length = 48
  · by_cases h2 : pers.length ≤ 48
    · left
      rw [if_neg (by simpa using h1), if_neg (by omega)]
      have h0 : Holds ⟨List.replicate 32 0, List.replicate 16 0, 0⟩ ⟨List.replicate 32 0, 0, 0⟩ := ⟨rfl, by decide, by norm_num, rfl⟩
      obtain ⟨a1, a2⟩ := update_holds E hE _ _ h0 (xorBytes seed (pad48 pers)) (by unfold xorBytes; rw [List.length_zipWith, pad48_length _ h2, h1]; rfl) (isBytes_xor _ _ hs (pad48_bytes _ hp))
      refine ⟨h1, h2, _, rfl, a2, a1.1, a1.2.1, a1.2.2.1, rfl⟩
    · right
      rw [if_neg (by simpa using h1), if_pos (by omega)]
      exact ⟨fun h => h2 h.2, rfl⟩
  · right
    rw [if_pos h1]
    exact ⟨fun h => h1 h.1, rfl⟩

/-- The additional input as SP 800-90A wants it: padded to 48 bytes. -/
def padded (a : Option Bytes) : Option Bytes := a.map fun a => a ++ List.replicate (48 - a.length) 0

/-- **C49**: a request raises exactly when `2^48 - 1` requests have been served or the additional input is longer than 48 bytes; otherwise output and next state are those of
CTR_DRBG_Generate. -/
theorem C49_generate (hE : Block E) (d : Drbg) (w : Work) (h : Holds d w) (num : ℕ) (add : Option Bytes) (ha : ∀ a, add = some a → IsBytes a) :
    (w.ctr < 2 ^ 48 ∧ (∀ a, add = some a → a.length ≤ 48) ∧ ∃ out d', d.randomBytes E num add = .ok (out, d') ∧ out.length = num ∧ d'.key.length = 32 ∧
      out = (specGenerate E w num (padded add)).1 ∧ Holds d' (specGenerate E w num (padded add)).2) ∨
    (2 ^ 48 ≤ w.ctr ∧ d.randomBytes E num add = .error .runtimeError) ∨
    (w.ctr < 2 ^ 48 ∧ (∃ a, add = some a ∧ 48 < a.length) ∧ d.randomBytes E num add = .error .valueError) := by
  unfold Drbg.randomBytes
  rw [h.2.2.2]
  by_cases hc : 2 ^ 48 ≤ w.ctr
  · exact .inr (.inl ⟨hc, by rw [if_pos hc]⟩)
  rw [if_neg hc]
  have hgen : ∀ (d : Drbg) (w : Work), Holds d w → ∀ pad : Bytes, pad.length = 48 → IsBytes pad →
      let (tmp, V) := genLoop E d.key num num d.V []
      let d' := Drbg.update E { d with V := V } pad
      (tmp.take num).length = num ∧ d'.key.length = 32 ∧ tmp.take num = (stream E w.K w.V ((num + 15) / 16)).take num ∧
        Holds { d' with reseedCtr := d'.reseedCtr + 1 } { specUpdate E { w with V := (w.V + (num + 15) / 16) % 2 ^ 128 } pad with
          ctr := (specUpdate E { w with V := (w.V + (num + 15) / 16) % 2 ^ 128 } pad).ctr + 1 } := by
    intro d w h pad hp hb
    have g := genLoop_spec E hE d.key num w.V num 0 (by omega) (by omega)
    rw [Nat.add_zero, Nat.mod_eq_of_lt h.2.2.1, ← h.2.1] at g
    rw [show stream E d.key w.V 0 = [] from rfl] at g
    rw [g]
    obtain ⟨a1, a2⟩ := update_holds E hE { d with V := block16 ((w.V + (num + 15) / 16) % 2 ^ 128) } { w with V := (w.V + (num + 15) / 16) % 2 ^ 128 }
      ⟨h.1, rfl, Nat.mod_lt _ (by norm_num), h.2.2.2⟩ pad hp hb
    refine ⟨?_, a2, by rw [h.1], a1.1, a1.2.1, a1.2.2.1, ?_⟩
    · rw [List.length_take, stream_length E hE]; omega
    · show _ + 1 = _ + 1
      rw [a1.2.2.2]
  cases add with
  | none =>
    left
    refine ⟨by omega, fun a ha => (by cases ha), ?_⟩
    have := hgen { d with reseedCtr := w.ctr } w ⟨h.1, h.2.1, h.2.2.1, rfl⟩ (List.replicate 48 0) (by simp) (by decide)
    simp only at this
    obtain ⟨g1, g2, g3, g4⟩ := this
    exact ⟨_, _, rfl, g1, g2, g3, g4⟩
  | some a =>
    by_cases hl : a.length ≤ 48
    · left
      refine ⟨by omega, fun b hb => by cases hb; exact hl, ?_⟩
      simp only
      rw [if_neg (by omega)]
      have hp := pad48_length a hl
      have hb := pad48_bytes a (ha a rfl)
      obtain ⟨u1, _⟩ := update_holds E hE d w h (pad48 a) hp hb
      have := hgen _ _ u1 (pad48 a) hp hb
      simp only at this
      obtain ⟨g1, g2, g3, g4⟩ := this
      exact ⟨_, _, rfl, g1, g2, g3, g4⟩
    · right; right
      simp only
      rw [if_pos (by omega)]
      exact ⟨by omega, ⟨a, rfl, by omega⟩, rfl⟩

/-- **C49**: the answers to any history of requests without additional input, from a 48-byte seed: all have the requested length and follow SP 800-90A, as long as there are fewer than
`2^48` of them. -/
def Drbg.run (d : Drbg) : List ℕ → Except Err (List Bytes × Drbg)
  | [] => .ok ([], d)
  | k :: ks =>
    match d.randomBytes E k none with
    | .error e => .error e
    | .ok (b, d) =>
      match Drbg.run d ks with
      | .error e => .error e
      | .ok (bs, d) => .ok (b :: bs, d)

/-- The same history by the specification. -/
def specRun (w : Work) : List ℕ → List Bytes × Work
  | [] => ([], w)
  | k :: ks =>
    let (b, w) := specGenerate E w k none
    let (bs, w) := specRun w ks
    (b :: bs, w)

theorem spec_ctr (w : Work) (k : ℕ) : (specGenerate E w k none).2.ctr = w.ctr + 1 := rfl

theorem C49_history (hE : Block E) (d : Drbg) (w : Work) (h : Holds d w) (ks : List ℕ) (hc : w.ctr + ks.length ≤ 2 ^ 48) :
    ∃ d', Drbg.run E d ks = .ok ((specRun E w ks).1, d') ∧ Holds d' (specRun E w ks).2 ∧ (specRun E w ks).1.map List.length = ks := by
  induction ks generalizing d w with
  | nil => exact ⟨d, rfl, h, rfl⟩
  | cons k ks ih =>
    rw [List.length_cons] at hc
    rcases C49_generate E hE d w h k none (fun a ha => (by cases ha)) with ⟨_, _, out, d', h1, h2, h3, h4, h5⟩ | ⟨h1, _⟩ | ⟨_, ⟨a, ha, _⟩, _⟩
    · obtain ⟨d'', i1, i2, i3⟩ := ih d' _ h5 (by rw [show padded none = none from rfl, spec_ctr]; omega)
      refine ⟨d'', ?_, i2, ?_⟩
      · unfold Drbg.run
        rw [h1]
        simp only
        rw [i1, h4]
        rfl
      · show List.length (specGenerate E w k none).1 :: _ = _
        rw [show (specGenerate E w k none).1 = out from h4.symm, h2]
        exact congrArg (k :: ·) i3
    · omega
    · cases ha

/-- **C49**: after `2^48 - 1` requests every further one raises, for ever (there is no reseeding). -/
theorem C49_exhausted (d : Drbg) (h : 2 ^ 48 ≤ d.reseedCtr) (num : ℕ) (add : Option Bytes) : d.randomBytes E num add = .error .runtimeError := by
  unfold Drbg.randomBytes
  rw [if_pos h]

/-- **C49**: the blocks encrypted under one key while serving a request (`m` for the output, three for the update that replaces the key) are pairwise different, for fewer than `2^128 - 2`
blocks. -/
theorem C49_no_counter_reuse (V m : ℕ) (hm : m + 3 ≤ 2 ^ 128) : ((List.range (m + 3)).map fun i => block16 ((V + i + 1) % 2 ^ 128)).Nodup := by
  refine List.Nodup.map_on ?_ List.nodup_range
  intro i hi j hj h
  rw [List.mem_range] at hi hj
  have h2 := congrArg value h
  rw [value_block16 _ (Nat.mod_lt _ (by norm_num)), value_block16 _ (Nat.mod_lt _ (by norm_num))] at h2
  have h3 : Nat.ModEq (2 ^ 128) (V + i + 1) (V + j + 1) := h2
  have h4 : Nat.ModEq (2 ^ 128) i j := by
    have := Nat.ModEq.add_right_cancel' 1 h3
    exact Nat.ModEq.add_left_cancel' V this
  exact Nat.ModEq.eq_of_lt_of_lt h4 (by omega) (by omega)

/-- The blocks of the previous theorem are those of the request: output and next state depend on the cipher only through them. -/
theorem C49_blocks_used (E' : Bytes → Bytes → Bytes) (w : Work) (num : ℕ)
    (h : ∀ i, i < (num + 15) / 16 + 3 → E w.K (block16 ((w.V + i + 1) % 2 ^ 128)) = E' w.K (block16 ((w.V + i + 1) % 2 ^ 128))) :
    specGenerate E w num none = specGenerate E' w num none := by
  have key : ∀ m V, (∀ i, i < m → E w.K (block16 ((V + i + 1) % 2 ^ 128)) = E' w.K (block16 ((V + i + 1) % 2 ^ 128))) → stream E w.K V m = stream E' w.K V m := by
    intro m V hi
    unfold stream
    rw [List.flatMap_def, List.flatMap_def]
    congr 1
    apply List.map_congr_left
    intro i hm
    exact hi i (List.mem_range.1 hm)
  unfold specGenerate specUpdate
  simp only
  rw [key _ w.V fun i hi => h i (by omega), key 3 ((w.V + (num + 15) / 16) % 2 ^ 128) ?_]
  intro i hi
  have := h ((num + 15) / 16 + i) (by omega)
  rw [show w.V + ((num + 15) / 16 + i) + 1 = w.V + (num + 15) / 16 + (i + 1) by ring] at this
  rw [show (w.V + (num + 15) / 16) % 2 ^ 128 + i + 1 = (w.V + (num + 15) / 16) % 2 ^ 128 + (i + 1) by ring, Nat.mod_add_mod]
  exact this

/-- A toy cipher with 16-byte blocks, and a run on it. -/
def toyCipher (K b : Bytes) : Bytes := (List.range 16).map fun i => (K.getD i 0 * 3 + b.getD i 0 * 5 + b.getD 15 0 + 7 * i) % 256

theorem toyCipher_block : Block toyCipher := by
  intro K b
  refine ⟨by simp [toyCipher], ?_⟩
  intro y hy
  obtain ⟨i, _, rfl⟩ := List.mem_map.1 hy
  exact Nat.mod_lt _ (by norm_num)

example : (match Drbg.init toyCipher (List.range 48) [] with
    | .ok d => (d.randomBytes toyCipher 33 none).toOption.map fun r => (r.1.length, r.2.reseedCtr)
    | .error _ => none) = some (33, 2) := by decide +kernel

end Verif.Rng
