import Verif.CRef.Zint
import Verif.CRef.ZintSpec
import Verif.CRef.KgArith

/-! # Lemmas on the words of big integers -/

namespace Verif.CRef.Kg

theorem Words.head {a : ℕ} {l : List ℕ} (h : Words (a :: l)) : a < 2147483648 := h a (by simp)
theorem Words.tail {a : ℕ} {l : List ℕ} (h : Words (a :: l)) : Words l := fun w hw => h w (by simp [hw])
theorem words_nil : Words [] := fun w hw => by simp at hw
theorem words_cons {a : ℕ} {l : List ℕ} (h : a < 2147483648) (hl : Words l) : Words (a :: l) := by
  intro w hw
  rcases List.mem_cons.1 hw with rfl | hw
  · exact h
  · exact hl w hw
theorem words_append {a b : List ℕ} (ha : Words a) (hb : Words b) : Words (a ++ b) := by
  intro w hw
  rcases List.mem_append.1 hw with h | h
  · exact ha w h
  · exact hb w h
theorem Words.take {l : List ℕ} (h : Words l) (k : ℕ) : Words (l.take k) := fun w hw => h w (List.mem_of_mem_take hw)
theorem Words.drop {l : List ℕ} (h : Words l) (k : ℕ) : Words (l.drop k) := fun w hw => h w (List.mem_of_mem_drop hw)
theorem words_replicate (k : ℕ) : Words (List.replicate k 0) := fun w hw => by rw [List.eq_of_mem_replicate hw]; norm_num

theorem big_cons (w : ℕ) (ws : List ℕ) : big (w :: ws) = w + 2147483648 * big ws := rfl
theorem big_replicate (k : ℕ) : big (List.replicate k 0) = 0 := by
  induction k with
  | zero => rfl
  | succ k ih => rw [List.replicate_succ, big_cons, ih]

theorem big_append (a b : List ℕ) : big (a ++ b) = big a + 2147483648 ^ a.length * big b := by
  induction a with
  | nil => simp [big]
  | cons w a ih => rw [List.cons_append, big_cons, big_cons, ih, List.length_cons, pow_succ]; ring

theorem big_lt (l : List ℕ) (h : Words l) : big l < 2147483648 ^ l.length := by
  induction l with
  | nil => simp [big]
  | cons w l ih =>
    have h1 := ih h.tail
    have h2 := h.head
    rw [big_cons, List.length_cons, pow_succ]
    omega

theorem big_inj (a b : List ℕ) (ha : Words a) (hb : Words b) (hl : a.length = b.length) (h : big a = big b) : a = b := by
  induction a generalizing b with
  | nil => exact (List.length_eq_zero_iff.1 hl.symm).symm
  | cons w a ih =>
    cases b with
    | nil => simp at hl
    | cons v b =>
      have h1 := ha.head
      have h2 := hb.head
      rw [big_cons, big_cons] at h
      have e1 : w = v := by omega
      have e2 : big a = big b := by omega
      rw [e1, ih b ha.tail hb.tail (by simpa using hl) e2]

theorem and31 (w : ℕ) : w &&& 0x7FFFFFFF = w % 2147483648 := Nat.and_two_pow_sub_one_eq_mod w 31

theorem shr31 (w : ℕ) : w >>> 31 = w / 2147483648 := Nat.shiftRight_eq_div_pow w 31

/-- One word of a subtraction with borrow. -/
theorem subWord (a b cc : ℕ) (ha : a < 2147483648) (hb : b < 2147483648) (hc : cc ≤ 1) :
    ∃ lo hi, sub32 (sub32 a b) cc &&& 0x7FFFFFFF = lo ∧ sub32 (sub32 a b) cc >>> 31 = hi ∧ lo < 2147483648 ∧ hi ≤ 1 ∧ lo + b + cc = a + 2147483648 * hi := by
  refine ⟨_, _, rfl, rfl, ?_⟩
  rw [and31, shr31]
  unfold sub32
  omega

/-! ## zint_sub -/

theorem subLoop_one (a b : List ℕ) (hl : a.length = b.length) (ha : Words a) (hb : Words b) (cc : ℕ) (hc : cc ≤ 1) :
    ∃ a' c', zintSubLoop (neg32 1) a b cc = (a', c') ∧ a'.length = a.length ∧ Words a' ∧ c' ≤ 1 ∧ big a' + big b + cc = big a + c' * 2147483648 ^ a.length := by
  induction a generalizing b cc with
  | nil =>
    obtain rfl := List.length_eq_zero_iff.1 hl.symm
    exact ⟨_, _, rfl, rfl, words_nil, hc, by simp [big]⟩
  | cons x a ih =>
    cases b with
    | nil => simp at hl
    | cons y b =>
      obtain ⟨lo, hi, e1, e2, h1, h2, h3⟩ := subWord x y cc ha.head hb.head hc
      obtain ⟨a', c', i1, i2, i3, i4, i5⟩ := ih b (by simpa using hl) ha.tail hb.tail hi h2
      have hx : x ^^^ ((lo ^^^ x) &&& neg32 1) = lo := by
        rw [mask1 _ (Nat.xor_lt_two_pow (n := 32) (by omega) (by have := ha.head; omega)), Nat.xor_comm lo x, ← Nat.xor_assoc, Nat.xor_self, Nat.zero_xor]
      refine ⟨lo :: a', c', ?_, by simp [i2], words_cons h1 i3, i4, ?_⟩
      · rw [zintSubLoop, e1, e2, i1, hx]
      · rw [big_cons, big_cons, big_cons, List.length_cons, pow_succ, ← mul_assoc]
        generalize c' * 2147483648 ^ a.length = t at *
        omega

theorem subLoop_zero (a b : List ℕ) (hl : a.length = b.length) (ha : Words a) (hb : Words b) (cc : ℕ) (hc : cc ≤ 1) :
    ∃ c', zintSubLoop (neg32 0) a b cc = (a, c') ∧ (zintSubLoop (neg32 1) a b cc).2 = c' := by
  induction a generalizing b cc with
  | nil =>
    obtain rfl := List.length_eq_zero_iff.1 hl.symm
    exact ⟨_, rfl, rfl⟩
  | cons x a ih =>
    cases b with
    | nil => simp at hl
    | cons y b =>
      obtain ⟨lo, hi, e1, e2, h1, h2, h3⟩ := subWord x y cc ha.head hb.head hc
      obtain ⟨c', i1, i2⟩ := ih b (by simpa using hl) ha.tail hb.tail hi h2
      refine ⟨c', ?_, ?_⟩
      · rw [zintSubLoop, e1, e2, i1, mask0, Nat.xor_zero]
      · rw [zintSubLoop, e2]; exact i2

/-- `zint_sub`: the borrow, and the difference modulo `2^(31 len)` if `ctl = 1`. -/
theorem zintSub_spec (a b : List ℕ) (hl : a.length = b.length) (ha : Words a) (hb : Words b) (ctl : ℕ) (hc : ctl ≤ 1) :
    ∃ a' c', zintSub a b ctl = (a', c') ∧ a'.length = a.length ∧ Words a' ∧ (c' = if big a < big b then 1 else 0) ∧
      (ctl = 0 → a' = a) ∧ (ctl = 1 → big a' + big b = big a + c' * 2147483648 ^ a.length) := by
  obtain ⟨a1, c1, e1, l1, w1, k1, s1⟩ := subLoop_one a b hl ha hb 0 (by omega)
  have hc1 : c1 = if big a < big b then 1 else 0 := by
    have h1 := big_lt a1 w1
    have h2 := big_lt a ha
    have h3 := big_lt b hb
    rw [l1] at h1
    rw [← hl] at h3
    have : c1 = 0 ∨ c1 = 1 := by omega
    rcases this with rfl | rfl
    · rw [if_neg (by omega)]
    · rw [if_pos (by omega)]
  have : ctl = 0 ∨ ctl = 1 := by omega
  rcases this with rfl | rfl
  · obtain ⟨c', e2, e3⟩ := subLoop_zero a b hl ha hb 0 (by omega)
    rw [e1] at e3
    refine ⟨a, c', e2, rfl, ha, ?_, fun _ => rfl, fun h => by omega⟩
    rw [← e3]; exact hc1
  · exact ⟨a1, c1, e1, l1, w1, hc1, fun h => by omega, fun _ => by rw [← s1]; rfl⟩

/-! ## zint_mul_small, zint_add_mul_small -/

theorem mulWord (m x cc : ℕ) (hm : m < 2147483648) (hx : x < 2147483648) (hc : cc < 2147483648) :
    ∃ lo hi, ((m * x + cc) % 18446744073709551616) % 4294967296 &&& 0x7FFFFFFF = lo ∧ (((m * x + cc) % 18446744073709551616) >>> 31) % 4294967296 = hi ∧
      lo < 2147483648 ∧ hi < 2147483648 ∧ lo + 2147483648 * hi = m * x + cc := by
  refine ⟨_, _, rfl, rfl, ?_⟩
  rw [and31, shr31]
  have : m * x ≤ 2147483647 * 2147483647 := Nat.mul_le_mul (by omega) (by omega)
  generalize m * x = t at *
  omega

theorem mulSmall_spec (x : ℕ) (hx : x < 2147483648) (m : List ℕ) (hm : Words m) (cc : ℕ) (hc : cc < 2147483648) :
    ∃ m' c', zintMulSmall x m cc = (m', c') ∧ m'.length = m.length ∧ Words m' ∧ c' < 2147483648 ∧ big m' + c' * 2147483648 ^ m.length = big m * x + cc := by
  induction m generalizing cc with
  | nil => exact ⟨_, _, rfl, rfl, words_nil, hc, by simp [big]⟩
  | cons w m ih =>
    obtain ⟨lo, hi, e1, e2, h1, h2, h3⟩ := mulWord w x cc hm.head hx hc
    obtain ⟨m', c', i1, i2, i3, i4, i5⟩ := ih hm.tail hi h2
    refine ⟨lo :: m', c', ?_, by simp [i2], words_cons h1 i3, i4, ?_⟩
    · rw [zintMulSmall, e1, e2, i1]
    · rw [big_cons, big_cons, List.length_cons, pow_succ, ← mul_assoc, Nat.add_mul, Nat.mul_assoc 2147483648]
      generalize c' * 2147483648 ^ m.length = t at *
      generalize big m * x = s at *
      generalize w * x = r at *
      omega

theorem addMulWord (x y s cc : ℕ) (hx : x < 2147483648) (hy : y < 2147483648) (hs : s < 2147483648) (hc : cc < 2147483648) :
    ∃ lo hi, ((y * s + x + cc) % 18446744073709551616) % 4294967296 &&& 0x7FFFFFFF = lo ∧ (((y * s + x + cc) % 18446744073709551616) >>> 31) % 4294967296 = hi ∧
      lo < 2147483648 ∧ hi < 2147483648 ∧ lo + 2147483648 * hi = y * s + x + cc := by
  refine ⟨_, _, rfl, rfl, ?_⟩
  rw [and31, shr31]
  have : y * s ≤ 2147483647 * 2147483647 := Nat.mul_le_mul (by omega) (by omega)
  generalize y * s = t at *
  omega

theorem addMulSmall_spec (s : ℕ) (hs : s < 2147483648) (x y : List ℕ) (hl : x.length = y.length) (hx : Words x) (hy : Words y) (cc : ℕ) (hc : cc < 2147483648) :
    (zintAddMulSmall s x y cc).length = x.length + 1 ∧ Words (zintAddMulSmall s x y cc) ∧ big (zintAddMulSmall s x y cc) = big x + big y * s + cc := by
  induction x generalizing y cc with
  | nil =>
    obtain rfl := List.length_eq_zero_iff.1 hl.symm
    exact ⟨rfl, words_cons hc words_nil, by simp [zintAddMulSmall, big]⟩
  | cons w x ih =>
    cases y with
    | nil => simp at hl
    | cons v y =>
      obtain ⟨lo, hi, e1, e2, h1, h2, h3⟩ := addMulWord w v s cc hx.head hy.head hs hc
      obtain ⟨i1, i2, i3⟩ := ih y (by simpa using hl) hx.tail hy.tail hi h2
      rw [zintAddMulSmall, e1, e2]
      refine ⟨by simp [i1], words_cons h1 i2, ?_⟩
      rw [big_cons, big_cons, big_cons, i3, Nat.add_mul, Nat.mul_assoc 2147483648]
      generalize big y * s = t at *
      generalize v * s = r at *
      omega

/-! ## Residues -/

theorem modUnsigned_spec {p p0i : ℕ} (M : Modulus p p0i) (d : List ℕ) (hd : Words d) :
    zintModSmallUnsigned d p p0i (modpR2 p p0i) = big d % p := by
  have hlo := M.lo
  have hhi := M.hi
  have key : Plain p (zintModSmallUnsigned d p p0i (modpR2 p p0i)) (big d : ZMod p) := by
    induction d with
    | nil => exact ⟨by show 0 < p; omega, by simp [zintModSmallUnsigned, big]⟩
    | cons w d ih =>
      have i := ih hd.tail
      have hw := hd.head
      have e : zintModSmallUnsigned (w :: d) p p0i (modpR2 p p0i) =
          modpAdd (modpMontymul (zintModSmallUnsigned d p p0i (modpR2 p p0i)) (modpR2 p p0i) p p0i) (add32 (sub32 w p) (p &&& neg32 (sub32 w p >>> 31))) p := rfl
      rw [e, big_cons]
      have h2 : Plain p (add32 (sub32 w p) (p &&& neg32 (sub32 w p >>> 31))) (w : ZMod p) := by
        rw [condAdd p (by omega) _ (by unfold sub32; omega)]
        have hs : sub32 w p = if p ≤ w then w - p else w + 4294967296 - p := by unfold sub32; split <;> omega
        rw [hs]
        by_cases c : p ≤ w
        · rw [if_pos c, if_pos (by omega)]
          exact ⟨by omega, by rw [Nat.cast_sub c, CharP.cast_eq_zero (ZMod p) p, sub_zero]⟩
        · rw [if_neg c, if_neg (by omega), show (w + 4294967296 - p + p) % 4294967296 = w by omega]
          exact ⟨by omega, rfl⟩
      have h3 := Plain.add M (Plain.mulMont M i (modpR2_eq M)) h2
      refine ⟨h3.1, ?_⟩
      rw [h3.2]
      unfold Rf
      push_cast
      ring
  have h := key.2
  rw [ZMod.natCast_eq_natCast_iff] at h
  have := Nat.mod_eq_of_lt key.1
  rw [← this]; exact h

end Verif.CRef.Kg
