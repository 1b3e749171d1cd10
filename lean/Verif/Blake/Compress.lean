import Verif.Blake.Model
import Verif.Blake.Spec
import Mathlib.Tactic.Ring
import Mathlib.Tactic.Linarith
import Mathlib.Tactic.IntervalCases
import Mathlib.Tactic.NormNum
import Mathlib.Data.Nat.Bitwise

/-! The compression function is the one of RFC 7693. -/

namespace Verif.Blake

theorem rightRot_toNat (x : BitVec 32) (n : ℕ) (hn : n < 32) : rightRot x.toNat n = (x.rotateRight n).toNat := by
  unfold rightRot
  rw [BitVec.toNat_rotateRight, Nat.mod_eq_of_lt hn, Nat.and_two_pow_sub_one_eq_mod]
  congr 1
  rw [Nat.shiftLeft_eq, Nat.shiftLeft_eq]
  conv_rhs => rw [show 2 ^ 32 = 2 ^ n * 2 ^ (32 - n) by rw [← Nat.pow_add]; congr 1; omega, Nat.mul_mod_mul_right]

theorem add3_toNat (a b c : BitVec 32) : (a.toNat + b.toNat + c.toNat) % 2 ^ 32 = (a + b + c).toNat := by
  rw [BitVec.toNat_add, BitVec.toNat_add, Nat.mod_add_mod]

theorem mix_toNat (a b c d x y : BitVec 32) : mix a.toNat b.toNat c.toNat d.toNat x.toNat y.toNat =
    ((mixG a b c d x y).1.toNat, (mixG a b c d x y).2.1.toNat, (mixG a b c d x y).2.2.1.toNat, (mixG a b c d x y).2.2.2.toNat) := by
  unfold mix mixG
  simp only [add3_toNat, ← BitVec.toNat_add, ← BitVec.toNat_xor, rightRot_toNat _ 16 (by norm_num), rightRot_toNat _ 12 (by norm_num), rightRot_toNat _ 8 (by norm_num), rightRot_toNat _ 7 (by norm_num)]

/-- The list of the words of a state. -/
def words (f : State) : List ℕ := List.ofFn fun i => (f i).toNat

theorem words_length (f : State) : (words f).length = 16 := by simp [words]

theorem words_getD (f : State) (i : Fin 16) : (words f).getD i 0 = (f i).toNat := by
  rw [List.getD_eq_getElem?_getD, List.getElem?_eq_getElem (by rw [words_length]; exact i.isLt)]
  unfold words
  rw [List.getElem_ofFn]
  rfl

/-- A list whose first 16 numbers are the words `m 0, …, m 15`. -/
def Words (l : List ℕ) (m : ℕ → BitVec 32) : Prop := ∀ i < 16, l.getD i 0 = (m i).toNat

theorem step_words {l : List ℕ} {m : ℕ → BitVec 32} (hm : Words l m) (f : State) (i j k l' : Fin 16) (x y : ℕ) (hx : x < 16) (hy : y < 16) (h : i ≠ j ∧ i ≠ k ∧ i ≠ l' ∧ j ≠ k ∧ j ≠ l' ∧ k ≠ l') :
    step l i j k l' x y (words f) = words (gAt i j k l' (m x) (m y) f) := by
  unfold step
  simp only [words_getD, hm x hx, hm y hy, mix_toNat]
  apply List.ext_getElem
  · simp [words_length]
  · intro n h1 h2
    rw [words_length] at h2
    simp only [List.getElem_set]
    obtain ⟨h1', h2', h3', h4', h5', h6'⟩ := h
    have e : ∀ x : Fin 16, (x.val = n) ↔ (⟨n, h2⟩ : Fin 16) = x := by
      intro x; constructor
      · rintro rfl; rfl
      · intro h; rw [← h]
    simp only [e]
    simp only [words, List.getElem_ofFn, gAt]
    generalize (⟨n, h2⟩ : Fin 16) = z
    by_cases hi : z = i
    · subst hi
      rw [if_neg h3', if_neg h2', if_neg h1', if_pos rfl, if_pos rfl]
    by_cases hj : z = j
    · subst hj
      rw [if_neg h5', if_neg h4', if_pos rfl, if_neg hi, if_pos rfl]
    by_cases hk : z = k
    · subst hk
      rw [if_neg h6', if_pos rfl, if_neg hi, if_neg hj, if_pos rfl]
    by_cases hl : z = l'
    · subst hl
      rw [if_pos rfl, if_neg hi, if_neg hj, if_neg hk, if_pos rfl]
    · rw [if_neg hl, if_neg hk, if_neg hj, if_neg hi, if_neg hi, if_neg hj, if_neg hk, if_neg hl]

theorem round_words {l : List ℕ} {m : ℕ → BitVec 32} (hm : Words l m) (s : List ℕ) (hs : ∀ i, s.getD i 0 < 16) (f : State) : blakeRound (words f) l s = words (round m s f) := by
  unfold blakeRound round
  have q0 : ∀ g x y, x < 16 → y < 16 → step l 0 4 8 12 x y (words g) = words (gAt 0 4 8 12 (m x) (m y) g) := fun g x y hx hy => step_words hm g 0 4 8 12 x y hx hy (by decide)
  have q1 : ∀ g x y, x < 16 → y < 16 → step l 1 5 9 13 x y (words g) = words (gAt 1 5 9 13 (m x) (m y) g) := fun g x y hx hy => step_words hm g 1 5 9 13 x y hx hy (by decide)
  have q2 : ∀ g x y, x < 16 → y < 16 → step l 2 6 10 14 x y (words g) = words (gAt 2 6 10 14 (m x) (m y) g) := fun g x y hx hy => step_words hm g 2 6 10 14 x y hx hy (by decide)
  have q3 : ∀ g x y, x < 16 → y < 16 → step l 3 7 11 15 x y (words g) = words (gAt 3 7 11 15 (m x) (m y) g) := fun g x y hx hy => step_words hm g 3 7 11 15 x y hx hy (by decide)
  have q4 : ∀ g x y, x < 16 → y < 16 → step l 0 5 10 15 x y (words g) = words (gAt 0 5 10 15 (m x) (m y) g) := fun g x y hx hy => step_words hm g 0 5 10 15 x y hx hy (by decide)
  have q5 : ∀ g x y, x < 16 → y < 16 → step l 1 6 11 12 x y (words g) = words (gAt 1 6 11 12 (m x) (m y) g) := fun g x y hx hy => step_words hm g 1 6 11 12 x y hx hy (by decide)
  have q6 : ∀ g x y, x < 16 → y < 16 → step l 2 7 8 13 x y (words g) = words (gAt 2 7 8 13 (m x) (m y) g) := fun g x y hx hy => step_words hm g 2 7 8 13 x y hx hy (by decide)
  have q7 : ∀ g x y, x < 16 → y < 16 → step l 3 4 9 14 x y (words g) = words (gAt 3 4 9 14 (m x) (m y) g) := fun g x y hx hy => step_words hm g 3 4 9 14 x y hx hy (by decide)
  simp only
  rw [q0 _ _ _ (hs _) (hs _), q1 _ _ _ (hs _) (hs _), q2 _ _ _ (hs _) (hs _), q3 _ _ _ (hs _) (hs _), q4 _ _ _ (hs _) (hs _), q5 _ _ _ (hs _) (hs _), q6 _ _ _ (hs _) (hs _), q7 _ _ _ (hs _) (hs _)]

theorem sigma_eq (i : ℕ) (h : i < 10) : SIGMA.getD i [] = sigma i := by
  interval_cases i <;> rfl

theorem sigma_lt (n i : ℕ) : (sigma n).getD i 0 < 16 := by
  have key : ∀ l : List ℕ, (∀ x ∈ l, x < 16) → l.getD i 0 < 16 := by
    intro l hl
    rw [List.getD_eq_getElem?_getD]
    rcases h : l[i]? with _ | x
    · simp
    · exact hl x (List.mem_of_getElem? h)
  apply key
  unfold sigma
  split <;> decide

theorem rounds_words {l : List ℕ} {m : ℕ → BitVec 32} (hm : Words l m) (f : State) (n : ℕ) (hn : n ≤ 10) :
    (List.range n).foldl (fun st i => blakeRound st l (SIGMA.getD i [])) (words f) = words (rounds m n f) := by
  induction n with
  | zero => rfl
  | succ n ih => rw [List.range_succ, List.foldl_append, ih (by omega), List.foldl_cons, List.foldl_nil, sigma_eq n (by omega), round_words hm _ (sigma_lt n), rounds]

/-- The eight words of a chaining value. -/
def hWords (h : ℕ → BitVec 32) : List ℕ := (List.range 8).map fun i => (h i).toNat

/-- `blake2s_compress` with a byte counter `t < 2^64` given as two words and the flag of the last block. -/
theorem compress_words {l : List ℕ} {m : ℕ → BitVec 32} (hm : Words l m) (hl : 16 ≤ l.length) (h : ℕ → BitVec 32) (t : ℕ) (ht : t < 2 ^ 64) (last : Bool) :
    compress (hWords h) l (t % 2 ^ 32) (t / 2 ^ 32) (if last then 0xFFFFFFFF else 0) 0 = .ok (hWords (compressF h m t last)) := by
  unfold compress
  have l8 : (hWords h).length = 8 := by simp [hWords]
  rw [if_neg (by omega)]
  have st : hWords h ++ IV.take 4 ++ [(0x510E527F ^^^ (t % 2 ^ 32)) % 2 ^ 32, (0x9B05688C ^^^ (t / 2 ^ 32)) % 2 ^ 32, (0x1F83D9AB ^^^ (if last then 0xFFFFFFFF else 0)) % 2 ^ 32, (0x5BE0CD19 ^^^ 0) % 2 ^ 32] =
      words (start h t last) := by
    have e12 : (0x510E527F ^^^ (t % 2 ^ 32)) % 2 ^ 32 = (iv 4 ^^^ BitVec.ofNat 32 t).toNat := by
      rw [BitVec.toNat_xor, BitVec.toNat_ofNat, Nat.mod_eq_of_lt]
      · rfl
      · exact Nat.xor_lt_two_pow (by norm_num) (Nat.mod_lt _ (by norm_num))
    have e13 : (0x9B05688C ^^^ (t / 2 ^ 32)) % 2 ^ 32 = (iv 5 ^^^ BitVec.ofNat 32 (t / 2 ^ 32)).toNat := by
      have : t / 2 ^ 32 < 2 ^ 32 := by omega
      rw [BitVec.toNat_xor, BitVec.toNat_ofNat, Nat.mod_eq_of_lt this, Nat.mod_eq_of_lt]
      · rfl
      · exact Nat.xor_lt_two_pow (by norm_num) this
    have e14 : (0x1F83D9AB ^^^ (if last then 0xFFFFFFFF else 0)) % 2 ^ 32 = (if last = true then ~~~ iv 6 else iv 6).toNat := by
      cases last <;> decide
    rw [e12, e13, e14]
    unfold words
    simp only [List.ofFn_succ, List.ofFn_zero, hWords, IV]
    cases last <;> rfl
  dsimp only
  rw [st, rounds_words hm _ 10 (by omega)]
  congr 1

end Verif.Blake
