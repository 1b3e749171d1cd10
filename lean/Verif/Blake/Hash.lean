import Verif.Blake.Compress

/-! The loop over the blocks is BLAKE2s of the words' bytes. -/

namespace Verif.Blake

theorem leValue_append (a b : Bytes) : leValue (a ++ b) = leValue a + 256 ^ a.length * leValue b := by
  induction a with
  | nil => simp [leValue]
  | cons x a ih => simp only [List.cons_append, leValue, ih, List.length_cons, pow_succ]; ring

theorem wordBytes_get (x t : ℕ) (ht : t < 4) : (wordBytes x)[t]? = some (x / 256 ^ t % 256) := by
  interval_cases t <;> simp [wordBytes]

theorem flatMap_getD (l : List ℕ) (i t : ℕ) (ht : t < 4) : (l.flatMap wordBytes).getD (4 * i + t) 0 = l.getD i 0 / 256 ^ t % 256 := by
  induction l generalizing i with
  | nil => simp
  | cons x l ih =>
    rw [List.flatMap_cons]
    have hl : (wordBytes x).length = 4 := rfl
    rcases i with _ | i
    · rw [List.getD_eq_getElem?_getD, List.getElem?_append_left (by rw [hl]; omega), show 4 * 0 + t = t by omega, wordBytes_get x t ht]
      simp
    · rw [List.getD_eq_getElem?_getD, List.getElem?_append_right (by rw [hl]; omega), hl, show 4 * (i + 1) + t - 4 = 4 * i + t by omega, ← List.getD_eq_getElem?_getD, ih]
      simp

theorem length_flatMap (l : List ℕ) : (l.flatMap wordBytes).length = 4 * l.length := by
  induction l with
  | nil => rfl
  | cons x l ih => rw [List.flatMap_cons, List.length_append, ih, List.length_cons]; show 4 + _ = _; omega

theorem isBytes_flatMap (l : List ℕ) : IsBytes (l.flatMap wordBytes) := by
  intro b hb
  simp only [List.mem_flatMap, wordBytes, List.mem_cons, List.not_mem_nil, or_false] at hb
  obtain ⟨x, _, h⟩ := hb
  omega

theorem wordAt_flatMap (l : List ℕ) (hl : ∀ x ∈ l, x < 2 ^ 32) (i : ℕ) : (wordAt (l.flatMap wordBytes) i).toNat = l.getD i 0 := by
  unfold wordAt
  have h0 := flatMap_getD l i 0 (by omega)
  rw [Nat.add_zero] at h0
  rw [h0, flatMap_getD l i 1 (by omega), flatMap_getD l i 2 (by omega), flatMap_getD l i 3 (by omega), BitVec.toNat_ofNat]
  have hx : l.getD i 0 < 2 ^ 32 := by
    rw [List.getD_eq_getElem?_getD]
    rcases h : l[i]? with _ | x
    · simp
    · exact hl x (List.mem_of_getElem? h)
  generalize l.getD i 0 = x at *
  norm_num
  omega

theorem block_length (w : List ℕ) (i : ℕ) : 16 ≤ (block w i).length := by
  unfold block; simp

theorem block_getD (w : List ℕ) (i j : ℕ) (hj : j < 16) : (block w i).getD j 0 = w.getD (16 * i + j) 0 := by
  unfold block
  simp only [List.getD_eq_getElem?_getD]
  by_cases h : j < ((w.drop (16 * i)).take 16).length
  · rw [List.getElem?_append_left h, List.getElem?_take, if_pos hj, List.getElem?_drop]
  · rw [List.getElem?_append_right (by omega)]
    have : w.length ≤ 16 * i + j := by
      simp at h
      omega
    rw [List.getElem?_eq_none this, List.getElem?_replicate]
    split <;> rfl

theorem block_words (w : List ℕ) (hw : ∀ x ∈ w, x < 2 ^ 32) (i : ℕ) : Words (block w i) (fun j => wordAt (w.flatMap wordBytes) (16 * i + j)) := by
  intro j hj
  rw [block_getD w i j hj, wordAt_flatMap w hw]

theorem hashLoop_eq (w : List ℕ) (hw : ∀ x ∈ w, x < 2 ^ 32) (hlen : 4 * w.length < 2 ^ 32) : ∀ (k i : ℕ), k + i + 1 = nBlocks w →
    hashLoop w (k + 1) i (hWords (stateBefore (w.flatMap wordBytes) i)) (64 * i) = .ok (hWords (blake2s (w.flatMap wordBytes))) := by
  have hB := length_flatMap w
  intro k
  induction k with
  | zero =>
    intro i hi
    unfold nBlocks at hi
    unfold hashLoop
    have hs : 64 * i + min 64 (w.length * 4 - 64 * i) = 4 * w.length := by omega
    have hc := compress_words (block_words w hw i) (block_length w i) (stateBefore (w.flatMap wordBytes) i) (4 * w.length) (by omega) true
    rw [Nat.mod_eq_of_lt hlen, show 4 * w.length / 2 ^ 32 = 0 by omega] at hc
    dsimp only
    rw [hs, if_pos (by omega)]
    simp only [if_true] at hc
    rw [hc]
    dsimp only
    unfold hashLoop
    congr 1
    unfold blake2s
    have : blocks (List.flatMap wordBytes w).length - 1 = i := by unfold blocks; omega
    rw [this, hB]
  | succ k ih =>
    intro i hi
    have hi' := hi
    unfold nBlocks at hi'
    unfold hashLoop
    have hs : 64 * i + min 64 (w.length * 4 - 64 * i) = 64 * (i + 1) := by omega
    have hc := compress_words (block_words w hw i) (block_length w i) (stateBefore (w.flatMap wordBytes) i) (64 * (i + 1)) (by omega) false
    rw [Nat.mod_eq_of_lt (show 64 * (i + 1) < 2 ^ 32 by omega), show 64 * (i + 1) / 2 ^ 32 = 0 by omega] at hc
    dsimp only
    rw [hs, if_neg (by omega)]
    simp only [Bool.false_eq_true, if_false] at hc
    rw [hc]
    exact ih (i + 1) (by omega)

theorem hashLoop_blake2s (w : List ℕ) (hw : ∀ x ∈ w, x < 2 ^ 32) (hlen : 4 * w.length < 2 ^ 32) : hashLoop w (nBlocks w) 0 H0 0 = .ok (hWords (blake2s (w.flatMap wordBytes))) := by
  obtain ⟨k, hk⟩ : ∃ k, nBlocks w = k + 1 := ⟨nBlocks w - 1, by unfold nBlocks; omega⟩
  have := hashLoop_eq w hw hlen k 0 (by omega)
  rw [hk]
  exact this

/-- The number with base-`2^32` digits `g 0, …, g (n-1)`. -/
def wordSum (g : ℕ → ℕ) : ℕ → ℕ
  | 0 => 0
  | n + 1 => wordSum g n + g n * 2 ^ (32 * n)

theorem wordSum_lt (g : ℕ → ℕ) (n : ℕ) (h : ∀ i < n, g i < 2 ^ 32) : wordSum g n < 2 ^ (32 * n) := by
  induction n with
  | zero => simp [wordSum]
  | succ n ih =>
    have h1 := ih (fun i hi => h i (by omega))
    have h2 := h n (by omega)
    unfold wordSum
    rw [show 32 * (n + 1) = 32 * n + 32 by ring, pow_add]
    nlinarith [Nat.two_pow_pos (32 * n)]

theorem foldl_or (g : ℕ → ℕ) (n : ℕ) (h : ∀ i < n, g i < 2 ^ 32) : (List.range n).foldl (fun acc i => acc ||| ((g i &&& 0xFFFFFFFF) <<< (32 * i))) 0 = wordSum g n := by
  induction n with
  | zero => rfl
  | succ n ih =>
    have h' : ∀ i < n, g i < 2 ^ 32 := fun i hi => h i (by omega)
    rw [List.range_succ, List.foldl_append, ih h', List.foldl_cons, List.foldl_nil, Nat.or_comm]
    rw [show (0xFFFFFFFF : ℕ) = 2 ^ 32 - 1 from rfl, Nat.and_two_pow_sub_one_eq_mod, Nat.mod_eq_of_lt (h n (by omega)), ← Nat.shiftLeft_add_eq_or_of_lt (wordSum_lt g n h'), Nat.shiftLeft_eq]
    show _ = wordSum g n + g n * 2 ^ (32 * n)
    ring

theorem leValue_digits (g : ℕ → ℕ) (n : ℕ) (h : ∀ i < n, g i < 2 ^ 32) : leValue ((List.range (4 * n)).map fun p => g (p / 4) / 256 ^ (p % 4) % 256) = wordSum g n := by
  induction n with
  | zero => rfl
  | succ n ih =>
    rw [show 4 * (n + 1) = 4 * n + 4 by ring, List.range_add, List.map_append, leValue_append, ih (fun i hi => h i (by omega))]
    have h2 := h n (by omega)
    simp only [List.map_map, List.length_map, List.length_range]
    have : leValue (List.map ((fun p => g (p / 4) / 256 ^ (p % 4) % 256) ∘ fun x => 4 * n + x) (List.range 4)) = g n := by
      have e : List.map ((fun p => g (p / 4) / 256 ^ (p % 4) % 256) ∘ fun x => 4 * n + x) (List.range 4) = wordBytes (g n) := by
        simp only [List.range_succ, List.range_zero, List.nil_append, List.cons_append, List.map_cons, List.map_nil, Function.comp]
        rw [show (4 * n + 0) / 4 = n by omega, show (4 * n + 1) / 4 = n by omega, show (4 * n + 2) / 4 = n by omega, show (4 * n + 3) / 4 = n by omega,
          show (4 * n + 0) % 4 = 0 by omega, show (4 * n + 1) % 4 = 1 by omega, show (4 * n + 2) % 4 = 2 by omega, show (4 * n + 3) % 4 = 3 by omega]
        simp [wordBytes]
      rw [e]
      simp only [wordBytes, leValue]
      omega
    rw [this]
    show _ = wordSum g n + g n * 2 ^ (32 * n)
    rw [show 32 * n = 8 * (4 * n) by ring, pow_mul 2 8]
    ring

theorem foldl_congr' {f g : ℕ → ℕ → ℕ} : ∀ (l : List ℕ) (a : ℕ), (∀ acc, ∀ i ∈ l, f acc i = g acc i) → l.foldl f a = l.foldl g a
  | [], _, _ => rfl
  | x :: l, a, h => by
    rw [List.foldl_cons, List.foldl_cons, h a x (by simp)]
    exact foldl_congr' l _ fun acc i hi => h acc i (by simp [hi])

theorem stateIntoFelt_eq (h : ℕ → BitVec 32) (prime : ℕ) :
    stateIntoFelt (hWords h) prime = leValue ((List.range 32).map fun p => (h (p / 4)).toNat / 256 ^ (p % 4) % 256) % prime := by
  unfold stateIntoFelt
  refine congrArg (· % prime) ?_
  have e := leValue_digits (fun i => (h i).toNat) 8 (fun i _ => (h i).isLt)
  rw [show 4 * 8 = 32 from rfl] at e
  rw [e]
  have l8 : (hWords h).length = 8 := by simp [hWords]
  have g8 : ∀ i < 8, (hWords h).getD i 0 = (h i).toNat := by
    intro i hi
    simp [hWords, List.getD_eq_getElem?_getD, hi]
  rw [l8, ← foldl_or (fun i => (h i).toNat) 8 (fun i _ => (h i).isLt)]
  apply foldl_congr'
  intro acc i hi
  rw [g8 i (List.mem_range.1 hi)]

end Verif.Blake
