import Verif.Rng.Model
import Verif.Rng.Spec
import Mathlib.Tactic.Ring
import Mathlib.Tactic.Linarith
import Mathlib.Tactic.IntervalCases
import Mathlib.Data.Nat.Bitwise

/-! # C48: ChaCha20 -/

namespace Verif.Rng

/-! ## The block function -/

theorem roll_toNat (x : BitVec 32) (n : ℕ) (hn : n < 32) : roll x.toNat n = (x.rotateLeft n).toNat := by
  unfold roll
  rw [BitVec.toNat_rotateLeft, Nat.mod_eq_of_lt hn]
  have hx := x.isLt
  generalize x.toNat = v at *
  have h1 : v <<< n % 2 ^ 32 = (v % 2 ^ (32 - n)) <<< n := by
    rw [Nat.shiftLeft_eq, Nat.shiftLeft_eq, show 2 ^ 32 = 2 ^ (32 - n) * 2 ^ n by rw [← Nat.pow_add]; congr 1; omega, Nat.mul_mod_mul_right]
  have h2 : v >>> (32 - n) < 2 ^ n := by
    rw [Nat.shiftRight_eq_div_pow]
    apply Nat.div_lt_of_lt_mul
    rw [← Nat.pow_add]
    calc v < 2 ^ 32 := hx
      _ = _ := by congr 1; omega
  rw [h1, Nat.shiftLeft_add_eq_or_of_lt h2]

/-- The list of the words of a state. -/
def words (f : State) : List ℕ := List.ofFn fun i => (f i).toNat

theorem words_length (f : State) : (words f).length = 16 := by simp [words]

theorem words_getD (f : State) (i : Fin 16) : (words f).getD i 0 = (f i).toNat := by
  rw [List.getD_eq_getElem?_getD, List.getElem?_eq_getElem (by rw [words_length]; exact i.isLt)]
  unfold words
  rw [List.getElem_ofFn]
  rfl

theorem words_getElem (f : State) (n : ℕ) (h : n < 16) : (words f)[n]'(by rw [words_length]; exact h) = (f ⟨n, h⟩).toNat := by
  unfold words
  rw [List.getElem_ofFn]

theorem qround_words (f : State) (i j k l : Fin 16) (h : i ≠ j ∧ i ≠ k ∧ i ≠ l ∧ j ≠ k ∧ j ≠ l ∧ k ≠ l) :
    qround (words f) i j k l = words (onState f i j k l) := by
  unfold qround
  simp only [words_getD]
  simp only [← BitVec.toNat_add, ← BitVec.toNat_xor, roll_toNat _ 16 (by norm_num), roll_toNat _ 12 (by norm_num), roll_toNat _ 8 (by norm_num), roll_toNat _ 7 (by norm_num)]
  apply List.ext_getElem
  · simp [words_length]
  · intro n h1 h2
    rw [words_length] at h2
    simp only [List.getElem_set]
    obtain ⟨h1', h2', h3', h4', h5', h6'⟩ := h
    have e : ∀ x : Fin 16, (x.val = n) ↔ (⟨n, h2⟩ : Fin 16) = x := by
      intro x; constructor
      · rintro rfl; rfl
      · intro h; rw [← h]
    simp only [e]
    simp only [words, List.getElem_ofFn, onState, quarter]
    generalize (⟨n, h2⟩ : Fin 16) = x
    by_cases hi : x = i
    · subst hi
      rw [if_neg h3', if_neg h2', if_neg h1', if_pos rfl, if_pos rfl]
    by_cases hj : x = j
    · subst hj
      rw [if_neg h5', if_neg h4', if_pos rfl, if_neg hi, if_pos rfl]
    by_cases hk : x = k
    · subst hk
      rw [if_neg h6', if_pos rfl, if_neg hi, if_neg hj, if_pos rfl]
    by_cases hl : x = l
    · subst hl
      rw [if_pos rfl, if_neg hi, if_neg hj, if_neg hk, if_pos rfl]
    · rw [if_neg hl, if_neg hk, if_neg hj, if_neg hi, if_neg hi, if_neg hj, if_neg hk, if_neg hl]

theorem doubleRound_words (f : State) : doubleRound (words f) = words (inner f) := by
  unfold doubleRound inner
  have q0 : ∀ g, qround (words g) 0 4 8 12 = words (onState g 0 4 8 12) := fun g => qround_words g 0 4 8 12 (by decide)
  have q1 : ∀ g, qround (words g) 1 5 9 13 = words (onState g 1 5 9 13) := fun g => qround_words g 1 5 9 13 (by decide)
  have q2 : ∀ g, qround (words g) 2 6 10 14 = words (onState g 2 6 10 14) := fun g => qround_words g 2 6 10 14 (by decide)
  have q3 : ∀ g, qround (words g) 3 7 11 15 = words (onState g 3 7 11 15) := fun g => qround_words g 3 7 11 15 (by decide)
  have q4 : ∀ g, qround (words g) 0 5 10 15 = words (onState g 0 5 10 15) := fun g => qround_words g 0 5 10 15 (by decide)
  have q5 : ∀ g, qround (words g) 1 6 11 12 = words (onState g 1 6 11 12) := fun g => qround_words g 1 6 11 12 (by decide)
  have q6 : ∀ g, qround (words g) 2 7 8 13 = words (onState g 2 7 8 13) := fun g => qround_words g 2 7 8 13 (by decide)
  have q7 : ∀ g, qround (words g) 3 4 9 14 = words (onState g 3 4 9 14) := fun g => qround_words g 3 4 9 14 (by decide)
  simp only
  rw [q0, q1, q2, q3, q4, q5, q6, q7]

theorem foldl_rounds (f : State) (n : ℕ) : (List.range n).foldl (fun st _ => doubleRound st) (words f) = words (rounds n f) := by
  induction n with
  | zero => rfl
  | succ n ih => rw [List.range_succ, List.foldl_append, ih, List.foldl_cons, List.foldl_nil, doubleRound_words, rounds]

/-- **C48**: `update` computes the RFC 7539 block function on every matrix of 32-bit words. -/
theorem C48_block (f : State) : core (words f) = words (rfcBlock f) := by
  unfold core
  simp only
  rw [foldl_rounds]
  apply List.ext_getElem
  · simp [words_length]
  · intro n h1 h2
    rw [words_length] at h2
    rw [List.getElem_map, List.getElem_range]
    have a := words_getD (rounds 10 f) ⟨n, h2⟩
    have b := words_getD f ⟨n, h2⟩
    simp only at a b
    rw [a, b, ← BitVec.toNat_add]
    rw [words_getElem _ n h2]
    rfl

/-! ## The matrix -/

theorem leNat_four (src : Bytes) (h : IsBytes src) (i : ℕ) : leNat ((src.drop (4 * i)).take 4) = (seedWord src i).toNat := by
  have hb : ∀ k, src.getD k 0 < 256 := by
    intro k
    rw [List.getD_eq_getElem?_getD]
    by_cases hk : k < src.length
    · rw [List.getElem?_eq_getElem hk]; exact h _ (List.getElem_mem hk)
    · rw [List.getElem?_eq_none (by omega)]; norm_num
  have key : leNat ((src.drop (4 * i)).take 4) = src.getD (4 * i) 0 + 256 * src.getD (4 * i + 1) 0 + 256 ^ 2 * src.getD (4 * i + 2) 0 + 256 ^ 3 * src.getD (4 * i + 3) 0 := by
    have e : ∀ k, src.getD (4 * i + k) 0 = (src.drop (4 * i)).getD k 0 := by
      intro k; rw [List.getD_eq_getElem?_getD, List.getD_eq_getElem?_getD, List.getElem?_drop]
    rw [show 4 * i = 4 * i + 0 by rfl]
    simp only [Nat.add_assoc (4 * i) 0, Nat.zero_add] at *
    rw [e 0, e 1, e 2, e 3, Nat.add_zero]
    generalize src.drop (4 * i) = l
    rcases l with _ | ⟨a, _ | ⟨b, _ | ⟨c, _ | ⟨d, l⟩⟩⟩⟩ <;> simp [leNat] <;> ring
  rw [key]
  unfold seedWord
  rw [BitVec.toNat_ofNat, Nat.mod_eq_of_lt]
  have := hb (4 * i)
  have := hb (4 * i + 1)
  have := hb (4 * i + 2)
  have := hb (4 * i + 3)
  omega

/-- The object belongs to the seed `src` and its counter is `n`. -/
def Belongs (c : ChaCha) (src : Bytes) (n : ℕ) : Prop := c.s = (List.range 14).map (fun i => (seedWord src i).toNat) ∧ c.ctr = n

theorem init_belongs (src : Bytes) (h : IsBytes src) : Belongs (ChaCha.init src) src (counter0 src) := by
  have hs : (ChaCha.init src).s = (List.range 14).map (fun i => (seedWord src i).toNat) := by
    unfold ChaCha.init
    apply List.map_congr_left
    intro i _
    exact leNat_four src h i
  refine ⟨hs, ?_⟩
  have e : (ChaCha.init src).ctr = (ChaCha.init src).s.getD 12 0 + ((ChaCha.init src).s.getD 13 0) <<< 32 := rfl
  rw [e, hs]
  show (seedWord src 12).toNat + (seedWord src 13).toNat <<< 32 = _
  rw [Nat.shiftLeft_eq, counter0]; ring

theorem matrix_words (c : ChaCha) (src : Bytes) (n : ℕ) (h : Belongs c src n) (hn : n < 2 ^ 64) : c.matrix = words (chachaInput src (BitVec.ofNat 64 n)) := by
  obtain ⟨hs, hc⟩ := h
  unfold ChaCha.matrix
  rw [hs, hc]
  have e1 : (n % 2 ^ 32) = ((BitVec.ofNat 64 n).extractLsb' 0 32).toNat := by
    rw [BitVec.extractLsb'_toNat, BitVec.toNat_ofNat, Nat.shiftRight_zero]
    omega
  have e2 : n >>> 32 = ((BitVec.ofNat 64 n).extractLsb' 32 32).toNat := by
    rw [BitVec.extractLsb'_toNat, BitVec.toNat_ofNat, Nat.mod_eq_of_lt hn, Nat.mod_eq_of_lt]
    rw [Nat.shiftRight_eq_div_pow]
    omega
  rw [e1, e2]
  show cw ++ [(seedWord src 0).toNat, (seedWord src 1).toNat, (seedWord src 2).toNat, (seedWord src 3).toNat, (seedWord src 4).toNat, (seedWord src 5).toNat, (seedWord src 6).toNat,
    (seedWord src 7).toNat, (seedWord src 8).toNat, (seedWord src 9).toNat] ++ [(seedWord src 10).toNat ^^^ _, (seedWord src 11).toNat ^^^ _] = _
  rw [← BitVec.toNat_xor, ← BitVec.toNat_xor]
  rfl

/-! ## The chunks -/

theorem updates_spec (src : Bytes) (k : ℕ) (c : ChaCha) (n : ℕ) (h : Belongs c src n) (hn : n + k ≤ 2 ^ 64) :
    Belongs (updates k c).2 src (n + k) ∧ (updates k c).2.buf = c.buf ∧
      (updates k c).1 = (List.range k).map fun i => words (rfcBlock (chachaInput src (BitVec.ofNat 64 (n + i)))) := by
  induction k generalizing c n with
  | zero => exact ⟨h, rfl, rfl⟩
  | succ k ih =>
    have hb : Belongs c.update.2 src (n + 1) := ⟨h.1, by show c.ctr + 1 = n + 1; rw [h.2]⟩
    obtain ⟨i1, i2, i3⟩ := ih _ _ hb (by omega)
    unfold updates
    simp only
    refine ⟨by rw [show n + (k + 1) = n + 1 + k by ring]; exact i1, i2, ?_⟩
    rw [i3, List.range_succ_eq_map, List.map_cons, List.map_map]
    refine congrArg₂ List.cons ?_ ?_
    · show core c.matrix = _
      rw [matrix_words c src n h (by omega), C48_block, Nat.add_zero]
    · apply List.map_congr_left
      intro i _
      show words _ = words _
      rw [show n + 1 + i = n + i.succ by rw [Nat.succ_eq_add_one]; ring]

theorem le4_get (x t : ℕ) (ht : t < 4) : (le4 x)[t]? = some (x / 256 ^ t % 256) := by
  unfold le4
  interval_cases t <;> simp

theorem flatMap_le4 (l : List ℕ) (p : ℕ) : (l.flatMap le4)[p]? = (l[p / 4]?).map fun x => x / 256 ^ (p % 4) % 256 := by
  induction l generalizing p with
  | nil => simp
  | cons x l ih =>
    rw [List.flatMap_cons]
    by_cases hp : p < 4
    · rw [List.getElem?_append_left (by simpa [le4] using hp), le4_get x p hp, Nat.div_eq_of_lt hp, Nat.mod_eq_of_lt hp]
      rfl
    · rw [List.getElem?_append_right (by simp [le4]; omega), show (le4 x).length = 4 from rfl, ih]
      obtain ⟨q, rfl⟩ : ∃ q, p = q + 4 := ⟨p - 4, by omega⟩
      rw [Nat.add_sub_cancel, Nat.add_div_right _ (by norm_num), Nat.add_mod_right]
      rfl

theorem blockUpdate_spec (src : Bytes) (c : ChaCha) (j : ℕ) (h : Belongs c src (counter0 src + 8 * j)) (hn : counter0 src + 8 * j + 8 ≤ 2 ^ 64) :
    c.blockUpdate.1 = chunk src j ∧ Belongs c.blockUpdate.2 src (counter0 src + 8 * (j + 1)) := by
  obtain ⟨h1, h2, h3⟩ := updates_spec src 8 c _ h hn
  unfold ChaCha.blockUpdate
  simp only
  refine ⟨?_, by rw [show counter0 src + 8 * (j + 1) = counter0 src + 8 * j + 8 by ring]; exact h1⟩
  rw [h3]
  apply List.ext_getElem?
  intro p
  rw [flatMap_le4, chunk, List.getElem?_map, List.getElem?_map]
  by_cases hp : p < 512
  · rw [List.getElem?_range (by omega), List.getElem?_range hp]
    simp only [Option.map_some, Option.some.injEq]
    unfold keyByte
    have h8 : p / 4 % 8 < 8 := Nat.mod_lt _ (by norm_num)
    have h16 : p / 4 / 8 < 16 := by omega
    rw [List.getD_eq_getElem?_getD, List.getD_eq_getElem?_getD, List.getElem?_map, List.getElem?_range h8]
    simp only [Option.map_some, Option.getD_some]
    have := words_getD (rfcBlock (chachaInput src (BitVec.ofNat 64 (counter0 src + 8 * j + p / 4 % 8)))) (Fin.ofNat 16 (p / 4 / 8))
    rw [List.getD_eq_getElem?_getD] at this
    rw [← this]
    congr 4
    simp [Fin.ofNat, Nat.mod_eq_of_lt h16]
  · rw [List.getElem?_eq_none (by simp; omega), List.getElem?_eq_none (by simp; omega)]
    rfl

/-! ## Histories -/

theorem chunk_length (src : Bytes) (j : ℕ) : (chunk src j).length = 512 := by simp [chunk]

theorem run_spec (src : Bytes) (ks : List ℕ) (c : ChaCha) (next left : ℕ) (hl : left ≤ 512) (h : Belongs c src (counter0 src + 8 * next)) (hn : counter0 src + 8 * (next + ks.length) ≤ 2 ^ 64)
    (hb : c.buf = if left = 0 then [] else (chunk src (next - 1)).drop (512 - left)) :
    (c.run ks).1 = (plan next left ks).map fun x => ((chunk src x.1).drop x.2.1).take x.2.2 := by
  have hbl : c.buf.length = left := by
    rw [hb]; split
    · next h => simp [h]
    · rw [List.length_drop, chunk_length]; omega
  induction ks generalizing c next left with
  | nil => rfl
  | cons k ks ih =>
    rw [List.length_cons] at hn
    unfold ChaCha.run plan
    simp only
    unfold ChaCha.randombytes
    simp only [List.reverse_reverse]
    by_cases hk : k ≤ left
    · rw [if_pos hk, if_neg (by omega), List.map_cons]
      have hd : c.buf.drop k = if left - k = 0 then [] else (chunk src (next - 1)).drop (512 - (left - k)) := by
        rw [hb]
        split
        · next h0 => rw [if_pos (by omega)]; simp
        · rw [List.drop_drop]
          split
          · next h0 => rw [List.drop_eq_nil_of_le]; rw [chunk_length]; omega
          · congr 1; omega
      rw [ih { c with buf := c.buf.drop k } next (left - k) (by omega) ⟨h.1, h.2⟩ (by omega) hd (by show (c.buf.drop k).length = _; rw [List.length_drop, hbl])]
      refine congrArg₂ List.cons ?_ rfl
      rw [hb]
      split
      · next h0 =>
        have : k = 0 := by omega
        subst this; simp
      · rfl
    · rw [if_neg hk, if_pos (by omega), List.map_cons]
      obtain ⟨b1, b2⟩ := blockUpdate_spec src c next h (by omega)
      have hd : c.blockUpdate.1.drop k = if 512 - k = 0 then [] else (chunk src (next + 1 - 1)).drop (512 - (512 - k)) := by
        rw [b1, Nat.add_sub_cancel]
        split
        · next h0 => rw [List.drop_eq_nil_of_le]; rw [chunk_length]; omega
        · congr 1; omega
      rw [ih { c.blockUpdate.2 with buf := c.blockUpdate.1.drop k } (next + 1) (512 - k) (by omega) ⟨b2.1, b2.2⟩ (by omega) hd (by show (c.blockUpdate.1.drop k).length = _; rw [b1, List.length_drop, chunk_length])]
      refine congrArg₂ List.cons ?_ rfl
      show c.blockUpdate.1.take k = _
      rw [b1, List.drop_zero]

/-- **C48**: the answers to any history of requests are pieces of the keystream, as given by `plan`, as long as the 64-bit block counter does not pass its end. -/
theorem C48_stream (src : Bytes) (hs : IsBytes src) (ks : List ℕ) (hn : counter0 src + 8 * ks.length ≤ 2 ^ 64) :
    ((ChaCha.init src).run ks).1 = (plan 0 0 ks).map fun x => ((chunk src x.1).drop x.2.1).take x.2.2 :=
  run_spec src ks _ 0 0 (by norm_num) (init_belongs src hs) (by rw [Nat.zero_add]; exact hn) rfl

theorem plan_bound (next left : ℕ) (hl : left ≤ 512) (hz : left = 0 ∨ 0 < next) (ks : List ℕ) (hk : ∀ k ∈ ks, 0 < k ∧ k ≤ 512) :
    (∀ x ∈ plan next left ks, 512 * next ≤ 512 * x.1 + x.2.1 + left ∧ x.2.1 + x.2.2 ≤ 512 ∨ x.2.2 = 0) ∧
      (plan next left ks).Pairwise (fun x y => 512 * x.1 + x.2.1 + x.2.2 ≤ 512 * y.1 + y.2.1 ∨ y.2.2 = 0) := by
  induction ks generalizing next left with
  | nil => exact ⟨by simp [plan], List.Pairwise.nil⟩
  | cons k ks ih =>
    have hk0 := hk k (by simp)
    have hk' := fun k hk2 => hk k (List.mem_cons_of_mem _ hk2)
    unfold plan
    split
    · next h =>
      obtain ⟨i1, i2⟩ := ih next (left - k) (by omega) (by omega) hk'
      refine ⟨?_, List.pairwise_cons.2 ⟨?_, i2⟩⟩
      · intro x hx
        rcases List.mem_cons.1 hx with rfl | hx
        · simp only; omega
        · have := i1 x hx; omega
      · intro y hy
        have := i1 y hy
        simp only; omega
    · next h =>
      obtain ⟨i1, i2⟩ := ih (next + 1) (512 - k) (by omega) (by omega) hk'
      refine ⟨?_, List.pairwise_cons.2 ⟨?_, i2⟩⟩
      · intro x hx
        rcases List.mem_cons.1 hx with rfl | hx
        · simp only; omega
        · have := i1 x hx; omega
      · intro y hy
        have := i1 y hy
        simp only; omega

/-- **C48**: the pieces lie within their chunks and follow one another in the stream: no byte of the keystream is handed out twice, for requests of at most 512 bytes. -/
theorem C48_no_reuse (ks : List ℕ) (hk : ∀ k ∈ ks, 0 < k ∧ k ≤ 512) :
    (∀ x ∈ plan 0 0 ks, x.2.1 + x.2.2 ≤ 512) ∧ (plan 0 0 ks).Pairwise (fun x y => 512 * x.1 + x.2.1 + x.2.2 ≤ 512 * y.1 + y.2.1) ∧ (plan 0 0 ks).map (·.2.2) = ks := by
  obtain ⟨h1, h2⟩ := plan_bound 0 0 (by norm_num) (.inl rfl) ks hk
  have h3 : ∀ next left, (plan next left ks).map (·.2.2) = ks := by
    clear h1 h2 hk
    induction ks with
    | nil => intros; rfl
    | cons k ks ih =>
      intro next left
      unfold plan
      split <;> rw [List.map_cons, ih]
  have hpos : ∀ x ∈ plan 0 0 ks, 0 < x.2.2 := by
    intro x hx
    have : x.2.2 ∈ (plan 0 0 ks).map (·.2.2) := List.mem_map_of_mem hx
    rw [h3] at this
    exact (hk _ this).1
  refine ⟨fun x hx => ?_, ?_, h3 0 0⟩
  · have := h1 x hx; have := hpos x hx; omega
  · refine h2.imp_of_mem ?_
    intro x y hx hy h
    have := hpos y hy; omega

theorem length_flatMap_le4 (l : List ℕ) : (l.flatMap le4).length = 4 * l.length := by
  induction l with
  | nil => rfl
  | cons x l ih => rw [List.flatMap_cons, List.length_append, ih, List.length_cons, show (le4 x).length = 4 from rfl]; ring

theorem blockUpdate_length (c : ChaCha) : c.blockUpdate.1.length = 512 := by
  unfold ChaCha.blockUpdate
  simp only
  rw [length_flatMap_le4, List.length_map, List.length_range]

/-- **C48**: a request of `k` bytes is answered with `k` bytes, but never more than 512, whatever the state (a buffer never exceeds 512 bytes). -/
theorem C48_length (c : ChaCha) (hb : c.buf.length ≤ 512) (k : ℕ) : (c.randombytes k).1.length = min k 512 ∧ (c.randombytes k).2.buf.length ≤ 512 := by
  unfold ChaCha.randombytes
  simp only [List.reverse_reverse]
  split
  · show (c.blockUpdate.1.take k).length = _ ∧ (c.blockUpdate.1.drop k).length ≤ 512
    rw [List.length_take, List.length_drop, blockUpdate_length]; omega
  · next h =>
    simp only [List.length_take, List.length_drop]; omega

/-- **C48**: different counter values below `2^64` give different inputs of the block function. -/
theorem C48_inputs_distinct (src : Bytes) (m n : BitVec 64) (h : chachaInput src m = chachaInput src n) : m = n := by
  have h14 := congrFun h 14
  have h15 := congrFun h 15
  simp only [chachaInput] at h14 h15
  simp at h14 h15
  have e1 : m.extractLsb' 0 32 = n.extractLsb' 0 32 := h14
  have e2 : m.extractLsb' 32 32 = n.extractLsb' 32 32 := h15
  have key : ∀ x : BitVec 64, x = x.extractLsb' 32 32 ++ x.extractLsb' 0 32 := by
    intro x
    apply BitVec.eq_of_toNat_eq
    rw [BitVec.toNat_append, BitVec.extractLsb'_toNat, BitVec.extractLsb'_toNat, Nat.shiftRight_zero]
    have hx := x.isLt
    rw [← Nat.shiftLeft_add_eq_or_of_lt (Nat.mod_lt _ (by norm_num)), Nat.shiftRight_eq_div_pow, Nat.shiftLeft_eq]
    omega
  rw [key m, key n, e1, e2]

/-- **C48**: past the end of the 64-bit counter the stream is no longer ChaCha20 (`ctr >> 32` is not reduced): for the seed of 56 bytes 255 the second block already differs from the block
with the counter wrapped to 0. -/
theorem C48_wrap_false : ((ChaCha.init (List.replicate 56 255)).run [8]).1 ≠ [(chunk (List.replicate 56 255) 0).take 8] := by
  have hs : IsBytes (List.replicate 56 255) := by decide
  intro h
  have h7 := congrArg (fun l => (l.getD 0 []).getD 4 0) h
  have e : ((chunk (List.replicate 56 255) 0).take 8).getD 4 0 = (core (words (chachaInput (List.replicate 56 255) 0))).getD 0 0 % 256 := by
    have e0 : ((chunk (List.replicate 56 255) 0).take 8).getD 4 0 = keyByte (List.replicate 56 255) 0 4 := by
      rw [List.getD_eq_getElem?_getD, List.getElem?_take, if_pos (by norm_num), chunk, List.getElem?_map, List.getElem?_range (by norm_num)]
      rfl
    rw [e0, C48_block]
    have := words_getD (rfcBlock (chachaInput (List.replicate 56 255) 0)) 0
    simp only [Fin.val_zero] at this
    rw [this]
    unfold keyByte
    have hc : BitVec.ofNat 64 (counter0 (List.replicate 56 255) + 8 * 0 + 4 / 4 % 8) = 0 := by decide +kernel
    rw [hc]
    simp
  simp only [List.getD_cons_zero] at h7
  rw [e] at h7
  revert h7
  decide +kernel

/-- RFC 7539, 2.1.1: the test vector of the quarter round. -/
example : quarter 0x11111111 0x01020304 0x9b8d6f43 0x01234567 = (0xea2a92f4, 0xcb1cf8ce, 0x4581472e, 0x5881c4bb) := by decide

/-- The history theorem applies: 56 bytes of seed, three requests. -/
example : counter0 (List.range 56) + 8 * [9, 1, 8].length ≤ 2 ^ 64 := by decide +kernel
example : plan 0 0 [9, 500, 8] = [(0, 0, 9), (0, 9, 500), (1, 0, 8)] := by decide

end Verif.Rng
