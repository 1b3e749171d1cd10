import Verif.CRef.Core
import Verif.CRef.Spec

/-! # C77: the norm checks of the C code -/

namespace Verif.CRef

open Verif.NTT Verif.Ring Verif.Falcon

/-- What the accumulator knows about the exact sum `S`: the sum itself as long as it is below `2^31`, and otherwise only that it is too large. -/
def Track (st : ℕ × ℕ) (S : ℕ) : Prop := st.1 < 4294967296 ∧ st.2 < 4294967296 ∧
  ((S < 2147483648 ∧ st.1 = S ∧ st.2 < 2147483648) ∨ (2147483648 ≤ S ∧ 2147483648 ≤ st.2))

theorem accum_track (st : ℕ × ℕ) (S : ℕ) (h : Track st S) (z : ℤ) (hz : IsInt16 z) : Track (accum st z) (S + (z * z).toNat) := by
  obtain ⟨h1, h2, h3⟩ := h
  have hzz : 0 ≤ z * z ∧ z * z ≤ 1073741824 := by
    obtain ⟨a, b⟩ := hz
    constructor <;> nlinarith
  have hu : u32 (z * z) = (z * z).toNat := by unfold u32; omega
  unfold accum
  dsimp only
  rw [hu]
  obtain ⟨Z, hZ⟩ : ∃ Z, Z = (z * z).toNat := ⟨_, rfl⟩
  rw [← hZ]
  have hZ' : Z ≤ 1073741824 := by omega
  unfold add32
  refine ⟨by dsimp only; omega, Nat.or_lt_two_pow (n := 32) h2 (by omega), ?_⟩
  dsimp only
  rcases h3 with ⟨a, b, c⟩ | ⟨a, b⟩
  · by_cases hs : S + Z < 2147483648
    · refine Or.inl ⟨hs, by omega, Nat.or_lt_two_pow (n := 31) c (by omega)⟩
    · refine Or.inr ⟨by omega, le_trans ?_ (Nat.right_le_or)⟩
      omega
  · exact Or.inr ⟨by omega, le_trans b Nat.left_le_or⟩

theorem track_final (st : ℕ × ℕ) (S b : ℕ) (h : Track st S) (hb : b < 2147483648) : (st.1 ||| neg32 (st.2 >>> 31)) ≤ b ↔ S ≤ b := by
  obtain ⟨h1, h2, h3⟩ := h
  rw [shift31 _ h2]
  rcases h3 with ⟨a, e, c⟩ | ⟨a, c⟩
  · rw [if_pos c, show neg32 0 = 0 by decide, Nat.or_zero, e]
  · rw [if_neg (by omega), show neg32 1 = 4294967295 by decide]
    have : 4294967295 ≤ st.1 ||| 4294967295 := Nat.right_le_or
    omega

theorem l2bound_lt (k : ℕ) : l2bound[k]! < 2147483648 := by
  by_cases hk : k < 11
  · revert hk; revert k; decide
  · rw [List.getElem!_eq_getElem?_getD, List.getElem?_eq_none (by unfold l2bound; simp only [List.length_cons, List.length_nil]; omega)]; decide

/-- The squares of a list, as a natural number. -/
def nsq (l : List ℤ) : ℕ := (l.map fun z => (z * z).toNat).sum

theorem nsq_normSq (l : List ℤ) : (nsq l : ℤ) = normSq l := by
  unfold nsq normSq
  induction l with
  | nil => rfl
  | cons a l ih =>
    rw [List.map_cons, List.sum_cons, List.map_cons, List.sum_cons, Nat.cast_add, ih, Int.toNat_of_nonneg (mul_self_nonneg a)]

theorem nsq_take_succ (l : List ℤ) (i : ℕ) (h : i < l.length) : nsq (l.take (i + 1)) = nsq (l.take i) + (l[i]! * l[i]!).toNat := by
  unfold nsq
  rw [List.take_succ_eq_append_getElem h, List.map_append, List.sum_append, getElem!_pos l i h]
  simp

theorem fold_pair (s1 s2 : List ℤ) (n : ℕ) (h1 : Vec16 n s1) (h2 : Vec16 n s2) : ∀ m ≤ n,
    Track ((List.range m).foldl (fun st u => accum (accum st s1[u]!) s2[u]!) (0, 0)) (nsq (s1.take m) + nsq (s2.take m)) := by
  intro m
  induction m with
  | zero =>
    intro _
    rw [List.range_zero, List.foldl_nil, List.take_zero, List.take_zero]
    exact ⟨by decide, by decide, Or.inl (by decide)⟩
  | succ m ih =>
    intro hm
    have a1 : m < s1.length := by have := h1.1; omega
    have a2 : m < s2.length := by have := h2.1; omega
    rw [List.range_succ, List.foldl_append, List.foldl_cons, List.foldl_nil, nsq_take_succ s1 m a1, nsq_take_succ s2 m a2]
    have b1 : IsInt16 s1[m]! := by rw [getElem!_pos s1 m a1]; exact h1.2 _ (List.getElem_mem a1)
    have b2 : IsInt16 s2[m]! := by rw [getElem!_pos s2 m a2]; exact h2.2 _ (List.getElem_mem a2)
    have := accum_track _ _ (accum_track _ _ (ih (by omega)) _ b1) _ b2
    rwa [show nsq (s1.take m) + nsq (s2.take m) + (s1[m]! * s1[m]!).toNat + (s2[m]! * s2[m]!).toNat =
      nsq (s1.take m) + (s1[m]! * s1[m]!).toNat + (nsq (s2.take m) + (s2[m]! * s2[m]!).toNat) by ring] at this

theorem fold_half (s2 : List ℤ) (n : ℕ) (h2 : Vec16 n s2) (sqn S : ℕ) (h : Track (sqn, neg32 (sqn >>> 31)) S) : ∀ m ≤ n,
    Track ((List.range m).foldl (fun st u => accum st s2[u]!) (sqn, neg32 (sqn >>> 31))) (S + nsq (s2.take m)) := by
  intro m
  induction m with
  | zero => intro _; simpa [nsq] using h
  | succ m ih =>
    intro hm
    have a2 : m < s2.length := by have := h2.1; omega
    rw [List.range_succ, List.foldl_append, List.foldl_cons, List.foldl_nil, nsq_take_succ s2 m a2]
    have b2 : IsInt16 s2[m]! := by rw [getElem!_pos s2 m a2]; exact h2.2 _ (List.getElem_mem a2)
    have := accum_track _ _ (ih (by omega)) _ b2
    rwa [add_assoc] at this

/-- **C77**: the norm check is exact for all `int16_t` inputs: the saturating 32-bit accumulator never wraps a long vector into an accepted one. -/
theorem C77_is_short (k : ℕ) (s1 s2 : List ℤ) (h1 : Vec16 (2 ^ k) s1) (h2 : Vec16 (2 ^ k) s2) :
    isShort k s1 s2 = true ↔ normSq s1 + normSq s2 ≤ l2bound[k]! := by
  have h := fold_pair s1 s2 (2 ^ k) h1 h2 (2 ^ k) le_rfl
  rw [List.take_of_length_le h1.1.le, List.take_of_length_le h2.1.le] at h
  unfold isShort
  dsimp only
  rw [decide_eq_true_iff, track_final _ _ _ h (l2bound_lt k), ← nsq_normSq, ← nsq_normSq]
  norm_cast

/-- **C77**: the same for `is_short_half`, given the (possibly saturated) partial norm `sqn`: exact below `2^31`, and any larger `sqn` is rejected. -/
theorem C77_is_short_half (k sqn : ℕ) (s2 : List ℤ) (h2 : Vec16 (2 ^ k) s2) (hs : sqn < 2 ^ 32) :
    isShortHalf k sqn s2 = true ↔ (sqn : ℤ) + normSq s2 ≤ l2bound[k]! := by
  have ht : Track (sqn, neg32 (sqn >>> 31)) sqn := by
    unfold Track
    dsimp only
    rw [shift31 sqn hs]
    by_cases hh : sqn < 2147483648
    · rw [if_pos hh]; exact ⟨hs, by decide, Or.inl ⟨hh, rfl, by decide⟩⟩
    · rw [if_neg hh]; exact ⟨hs, by decide, Or.inr ⟨by omega, by decide⟩⟩
  have h := fold_half s2 (2 ^ k) h2 sqn sqn ht (2 ^ k) le_rfl
  rw [List.take_of_length_le h2.1.le] at h
  unfold isShortHalf
  dsimp only
  rw [decide_eq_true_iff, track_final _ _ _ h (l2bound_lt k), ← nsq_normSq]
  norm_cast

/-- **C77**: the bounds of the C code are those of the Python parameters, in every dimension. -/
theorem C77_bounds (k : ℕ) (h1 : 1 ≤ k) (h2 : k ≤ 10) : (params (2 ^ k)).map (·.1) = some l2bound[k]! := by
  revert k; decide

/-- Centring, vrfy.c 716-722. -/
theorem centre_eq (x : ℕ) (h : x < 12289) : centre x = Int.bmod x 12289 ∧ -6144 ≤ centre x ∧ centre x ≤ 6144 := by
  unfold centre
  dsimp only
  have e1 : u32 (x : ℤ) = x := by unfold u32; omega
  have e2 : (12289 >>> 1 : ℕ) = 6144 := by decide
  rw [e1, e2]
  have hs : sub32 6144 x < 4294967296 := by unfold sub32; omega
  rw [shift31 _ hs]
  by_cases hh : x ≤ 6144
  · rw [if_pos (by unfold sub32; omega), and_neg0, show i32 0 = 0 by decide, sub_zero, e1]
    unfold i16
    rw [if_pos (by omega), Nat.mod_eq_of_lt (by omega)]
    refine ⟨?_, by omega, by omega⟩
    rw [Int.bmod_eq_of_le] <;> omega
  · rw [if_neg (by unfold sub32; omega), and_neg1, show i32 12289 = 12289 by decide]
    have e3 : u32 ((x : ℤ) - 12289) = 4294967296 + x - 12289 := by unfold u32; omega
    rw [e3]
    unfold i16
    rw [if_neg (by omega)]
    have e4 : (((4294967296 + x - 12289) % 65536 : ℕ) : ℤ) - 65536 = (x : ℤ) - 12289 := by omega
    rw [e4]
    refine ⟨?_, by omega, by omega⟩
    rw [← Int.bmod_eq_of_le (n := (x : ℤ) - 12289) (m := 12289) (by omega) (by omega)]
    exact Int.sub_bmod_right _ _

end Verif.CRef
