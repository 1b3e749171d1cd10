import Verif.Packing.Model
import Mathlib.Algebra.BigOperators.Group.Finset.Basic
import Mathlib.Tactic.Ring
import Mathlib.Tactic.Linarith

namespace Verif.Packing

theorem getElem!_set {α} [Inhabited α] (l : List α) (i j : Nat) (v : α) :
    (l.set i v)[j]! = if i = j ∧ j < l.length then v else l[j]! := by
  simp only [List.getElem!_eq_getElem?_getD, List.getElem?_set]
  by_cases h : i = j
  · subst h
    by_cases h' : i < l.length
    · simp [h']
    · simp [h']
  · simp [h]

/-- A loop that accumulates item `i` into cell `i / 16`. -/
theorem group_loop (f : Nat → Nat → Nat) (m N : Nat) (hN : N ≤ 16 * m) :
    ((List.range N).foldl (fun b i => b.set (i / 16) (f b[i / 16]! i)) (List.replicate m 0)).length = m ∧
    ∀ j < m, ((List.range N).foldl (fun b i => b.set (i / 16) (f b[i / 16]! i)) (List.replicate m 0))[j]! =
      (List.range (min 16 (N - 16 * j))).foldl (fun acc k => f acc (16 * j + k)) 0 := by
  induction N with
  | zero =>
    refine ⟨by simp, fun j hj => ?_⟩
    simp [hj]
  | succ N ih =>
    obtain ⟨ih1, ih2⟩ := ih (by omega)
    simp only [List.range_succ, List.foldl_append, List.foldl_cons, List.foldl_nil]
    refine ⟨by rw [List.length_set, ih1], fun j hj => ?_⟩
    rw [getElem!_set, ih1, ih2 j hj]
    by_cases h : N / 16 = j
    · subst h
      rw [if_pos ⟨rfl, hj⟩, ih2 _ hj]
      have e1 : min 16 (N - 16 * (N / 16)) = N % 16 := by omega
      have e2 : min 16 (N + 1 - 16 * (N / 16)) = N % 16 + 1 := by omega
      rw [e1, e2, List.range_succ, List.foldl_append]
      simp only [List.foldl_cons, List.foldl_nil]
      congr 1; omega
    · rw [if_neg (by tauto)]
      congr 2; omega

/-- Base-65536 value of the first `t` digits. -/
def dig (d : Nat → Nat) (t : Nat) : Nat := ∑ k ∈ Finset.range t, d k * 2 ^ (16 * k)

theorem dig_succ (d t) : dig d (t + 1) = dig d t + d t * 2 ^ (16 * t) := Finset.sum_range_succ _ _

theorem dig_lt (d : Nat → Nat) (t : Nat) (h : ∀ k < t, d k < 65536) : dig d t < 2 ^ (16 * t) := by
  induction t with
  | zero => simp [dig]
  | succ t ih =>
    rw [dig_succ]
    have h1 := ih fun k hk => h k (by omega)
    have h2 : d t + 1 ≤ 65536 := h t (by omega)
    have e : 2 ^ (16 * (t + 1)) = 65536 * 2 ^ (16 * t) := by rw [show 16 * (t + 1) = 16 + 16 * t by ring, pow_add]; norm_num
    rw [e]
    nlinarith [Nat.mul_le_mul_right (2 ^ (16 * t)) h2]

theorem dig_div (d : Nat → Nat) (t j : Nat) (h : ∀ k < t, d k < 65536) (hj : j < t) :
    dig d t / 2 ^ (16 * j) % 65536 = d j := by
  induction t with
  | zero => omega
  | succ t ih =>
    rw [dig_succ]
    rcases Nat.lt_succ_iff_lt_or_eq.1 hj with hj' | rfl
    · have e : d t * 2 ^ (16 * t) = 2 ^ (16 * j) * (65536 * (d t * 2 ^ (16 * (t - j - 1)))) := by
        have : 2 ^ (16 * t) = 2 ^ (16 * j) * (65536 * 2 ^ (16 * (t - j - 1))) := by
          rw [show (65536 : Nat) = 2 ^ 16 by norm_num, ← pow_add, ← pow_add]; congr 1; omega
        rw [this]; ring
      rw [e, Nat.add_mul_div_left _ _ (by positivity), Nat.add_mul_mod_self_left]
      exact ih (fun k hk => h k (by omega)) hj'
    · rw [Nat.add_mul_div_right _ _ (by positivity), Nat.div_eq_of_lt (dig_lt _ _ fun k hk => h k (by omega))]
      rw [Nat.zero_add, Nat.mod_eq_of_lt (h _ (by omega))]

theorem dig_of_word (w : Nat) (t : Nat) : dig (fun k => w / 2 ^ (16 * k) % 65536) t = w % 2 ^ (16 * t) := by
  induction t with
  | zero => simp [dig, Nat.mod_one]
  | succ t ih =>
    rw [dig_succ, ih, show 16 * (t + 1) = 16 * t + 16 by ring, pow_add, Nat.mod_mul]
    norm_num [Nat.mul_comm]

theorem or_shift (a x s : Nat) (h : a < 2 ^ s) : a ||| x <<< s = a + x * 2 ^ s := by
  rw [Nat.or_comm, ← Nat.shiftLeft_add_eq_or_of_lt h, Nat.shiftLeft_eq, Nat.add_comm]

theorem xor_shift (a x s : Nat) (h : a < 2 ^ s) : a ^^^ x <<< s = a + x * 2 ^ s := by
  rw [← or_shift a x s h]
  apply Nat.eq_of_testBit_eq
  intro i
  rw [Nat.testBit_xor, Nat.testBit_or, Nat.testBit_shiftLeft]
  by_cases hi : s ≤ i
  · rw [Nat.testBit_lt_two_pow (lt_of_lt_of_le h (Nat.pow_le_pow_right (by norm_num) hi))]
    simp
  · simp [hi]

theorem or_loop (d : Nat → Nat) (t : Nat) (h : ∀ k < t, d k < 65536) :
    (List.range t).foldl (fun acc k => acc ||| d k <<< (k * 16)) 0 = dig d t := by
  induction t with
  | zero => simp [dig]
  | succ t ih =>
    rw [List.range_succ, List.foldl_append, ih fun k hk => h k (by omega)]
    simp only [List.foldl_cons, List.foldl_nil]
    rw [Nat.mul_comm t 16, or_shift _ _ _ (dig_lt _ _ fun k hk => h k (by omega)), dig_succ]

theorem xor_loop (d : Nat → Nat) (t : Nat) (ht : t ≤ 16) (h : ∀ k < t, d k < 65536) :
    (List.range t).foldl (fun acc k => acc ^^^ (d k <<< (k <<< 4)) % W) 0 = dig d t := by
  induction t with
  | zero => simp [dig]
  | succ t ih =>
    rw [List.range_succ, List.foldl_append, ih (by omega) fun k hk => h k (by omega)]
    simp only [List.foldl_cons, List.foldl_nil]
    have e : t <<< 4 = 16 * t := by rw [Nat.shiftLeft_eq]; omega
    have hl : (d t) <<< (16 * t) < W := by
      rw [Nat.shiftLeft_eq]
      have := h t (by omega)
      calc d t * 2 ^ (16 * t) < 2 ^ 16 * 2 ^ (16 * t) := by apply Nat.mul_lt_mul_of_pos_right (by omega) (by positivity)
        _ = 2 ^ (16 + 16 * t) := by rw [pow_add]
        _ ≤ W := Nat.pow_le_pow_right (by norm_num) (by omega)
    rw [e, Nat.mod_eq_of_lt hl, xor_shift _ _ _ (dig_lt _ _ fun k hk => h k (by omega)), dig_succ]

theorem list_ext_get! {α} [Inhabited α] (l l' : List α) (hl : l.length = l'.length) (h : ∀ j < l.length, l[j]! = l'[j]!) : l = l' := by
  apply List.ext_getElem hl
  intro j h1 h2
  have := h j h1
  rwa [getElem!_pos l j h1, getElem!_pos l' j h2] at this

theorem map_range_get! {α} [Inhabited α] (f : Nat → α) (m j : Nat) (hj : j < m) : ((List.range m).map f)[j]! = f j := by
  rw [getElem!_pos _ _ (by simpa using hj)]; simp

theorem and15 (i : Nat) : i &&& 0xF = i % 16 := by
  rw [show (0xF : Nat) = 2 ^ 4 - 1 by norm_num, Nat.and_two_pow_sub_one_eq_mod]

theorem shr4 (i : Nat) : i >>> 4 = i / 16 := by rw [Nat.shiftRight_eq_div_pow]

theorem falconCompact_eq (a : List Nat) (h1 : a.length % 16 = 0) (h2 : ∀ x ∈ a, x < 65536) :
    falconCompact a = .ok ((List.range (a.length / 16)).map fun j => dig (fun k => a[16 * j + k]!) 16) := by
  have hb : ∀ i : Nat, a[i]! < 65536 := by
    intro i
    by_cases hi : i < a.length
    · rw [getElem!_pos a i hi]; exact h2 _ (List.getElem_mem _)
    · rw [getElem!_neg a i hi]; decide
  unfold falconCompact
  rw [if_neg (by omega), if_neg (by
    rintro ⟨x, hx, h⟩
    exact h (by simpa using h2 x hx))]
  congr 1
  have hs : compactStep a = fun b i => b.set (i / 16) ((fun acc i => acc ||| a[i]! <<< (i % 16 * 16)) b[i / 16]! i) := by
    funext b i; unfold compactStep; rw [and15, shr4]
  rw [hs, shr4]
  obtain ⟨e1, e2⟩ := group_loop (fun acc i => acc ||| a[i]! <<< (i % 16 * 16)) (a.length / 16) a.length (by omega)
  apply list_ext_get!
  · rw [e1]; simp
  · intro j hj
    rw [e1] at hj
    rw [e2 j hj, map_range_get! _ _ _ hj, ← or_loop _ _ fun k _ => hb _]
    rw [show min 16 (a.length - 16 * j) = 16 by omega]
    apply List.foldl_ext
    intro b k hk
    have : k < 16 := by simpa using hk
    rw [show (16 * j + k) % 16 = k by omega]

theorem solCompact_eq (a : Nat → Nat) (h : ∀ i < 512, a i < 65536) :
    solCompact a = (List.range 32).map fun j => dig (fun k => a (16 * j + k)) 16 := by
  unfold solCompact
  have hs : solCompactStep a = fun b i => b.set (i / 16) ((fun acc i => acc ^^^ a i <<< ((i % 16) <<< 4) % W) b[i / 16]! i) := by
    funext b i; unfold solCompactStep; rw [and15, shr4]
  rw [hs]
  obtain ⟨e1, e2⟩ := group_loop (fun acc i => acc ^^^ a i <<< ((i % 16) <<< 4) % W) 32 512 (by omega)
  apply list_ext_get!
  · rw [e1]; simp
  · intro j hj
    rw [e1] at hj
    rw [e2 j hj, map_range_get! _ _ _ hj, ← xor_loop _ _ (by omega) fun k hk => h _ (by omega)]
    rw [show min 16 (512 - 16 * j) = 16 by omega]
    apply List.foldl_ext
    intro b k hk
    have : k < 16 := by simpa using hk
    rw [show (16 * j + k) % 16 = k by omega]

/-- A loop that writes `v i` at `p i`, with `p` injective: every written cell holds its value, others are untouched. -/
theorem write_loop {α} [Inhabited α] (p : Nat → Nat) (v : Nat → α) (N : Nat) (hp : ∀ i < N, ∀ j < N, p i = p j → i = j) (l : List α) :
    ((List.range N).foldl (fun b i => b.set (p i) (v i)) l).length = l.length ∧
    (∀ i < N, p i < l.length → ((List.range N).foldl (fun b i => b.set (p i) (v i)) l)[p i]! = v i) ∧
    (∀ k, (∀ i < N, p i ≠ k) → ((List.range N).foldl (fun b i => b.set (p i) (v i)) l)[k]! = l[k]!) := by
  induction N with
  | zero => simp
  | succ N ih =>
    obtain ⟨h1, h2, h3⟩ := ih fun i hi j hj => hp i (by omega) j (by omega)
    simp only [List.range_succ, List.foldl_append, List.foldl_cons, List.foldl_nil]
    refine ⟨by simp [h1], fun i hi hl => ?_, fun k hk => ?_⟩
    · rw [getElem!_set, h1]
      by_cases h : i = N
      · subst h; rw [if_pos ⟨rfl, hl⟩]
      · rw [if_neg (fun hc => h (hp i hi N (by omega) hc.1.symm)), h2 i (by omega) hl]
    · rw [getElem!_set, if_neg (fun hc => hk N (by omega) hc.1), h3 k fun i hi => hk i (by omega)]

theorem foldl_inner (a : Nat → Nat) (b : List Nat) (i : Nat) :
    solExpandStep a b i = (List.range 16).foldl (fun b j => b.set (16 * i + j) (a i / 2 ^ (16 * j) % 65536)) b := by
  unfold solExpandStep
  apply List.foldl_ext
  intro b j hj
  rw [show i <<< 4 = 16 * i by rw [Nat.shiftLeft_eq]; omega, show j <<< 4 = 16 * j by rw [Nat.shiftLeft_eq]; omega,
    Nat.shiftRight_eq_div_pow, show (0xffff : Nat) = 2 ^ 16 - 1 by norm_num, Nat.and_two_pow_sub_one_eq_mod, Nat.add_comm]

theorem solExpand_partial (a : Nat → Nat) (N : Nat) (hN : N ≤ 32) :
    ((List.range N).foldl (solExpandStep a) (List.replicate 512 0)).length = 512 ∧
    ∀ k < 16 * N, ((List.range N).foldl (solExpandStep a) (List.replicate 512 0))[k]! = a (k / 16) / 2 ^ (16 * (k % 16)) % 65536 := by
  induction N with
  | zero => exact ⟨List.length_replicate, fun k hk => by omega⟩
  | succ N ih =>
    obtain ⟨h1, h2⟩ := ih (by omega)
    simp only [List.range_succ, List.foldl_append, List.foldl_cons, List.foldl_nil]
    rw [foldl_inner]
    obtain ⟨w1, w2, w3⟩ := write_loop (fun j => 16 * N + j) (fun j => a N / 2 ^ (16 * j) % 65536) 16 (by intro i _ j _ h; simpa using h)
      ((List.range N).foldl (solExpandStep a) (List.replicate 512 0))
    refine ⟨by rw [w1, h1], fun k hk => ?_⟩
    by_cases hlt : k < 16 * N
    · rw [w3 k (by intro i hi; omega), h2 k hlt]
    · have := w2 (k - 16 * N) (by omega) (by rw [h1]; omega)
      rw [show 16 * N + (k - 16 * N) = k by omega] at this
      rw [this, show k / 16 = N by omega, show k % 16 = k - 16 * N by omega]

theorem solExpand_eq (a : Nat → Nat) :
    solExpand a = (List.range 512).map fun k => a (k / 16) / 2 ^ (16 * (k % 16)) % 65536 := by
  obtain ⟨h1, h2⟩ := solExpand_partial a 32 (by omega)
  apply list_ext_get!
  · unfold solExpand; rw [h1]; simp
  · intro j hj
    unfold solExpand at hj ⊢
    rw [h1] at hj
    rw [h2 j (by omega), map_range_get! _ _ _ hj]

theorem asMem_lt (l : List Nat) (d : Nat → Nat) (i : Nat) (h : i < l.length) : asMem l d i = l[i] := by
  unfold asMem; rw [dif_pos h]

theorem asMem_lt_getD (l : List Nat) (d : Nat → Nat) (i : Nat) (h : i < l.length) : asMem l d i = l.getD i 0 := by
  rw [asMem_lt l d i h, List.getD_eq_getElem?_getD, List.getElem?_eq_getElem h]; rfl

end Verif.Packing
