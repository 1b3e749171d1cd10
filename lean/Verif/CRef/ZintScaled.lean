import Verif.CRef.ZintCrt
import Verif.Ring.Spec

/-! # C101: scaled additions and subtractions -/

namespace Verif.CRef.Kg
open Verif.Ring

theorem sbig_range (l : List ℕ) (h : Words l) : -2147483648 ^ l.length ≤ 2 * sbig l ∧ 2 * sbig l < 2147483648 ^ l.length := by
  have := big_lt l h
  rw [sbig_eq]
  have e : (2147483648 : ℤ) ^ l.length = ((2147483648 ^ l.length : ℕ) : ℤ) := by push_cast; rfl
  rw [e]
  split <;> omega

theorem sbig_mod (l : List ℕ) : sbig l ≡ big l [ZMOD 2147483648 ^ l.length] := by
  rw [sbig_eq]
  split
  · rfl
  · rw [Int.modEq_iff_dvd]; exact ⟨1, by ring⟩

theorem modEq_of_eq {n a b : ℤ} (h : a = b) : a ≡ b [ZMOD n] := by rw [h]

/-- A number in range is determined by its residue. -/
theorem sbig_unique (l : List ℕ) (h : Words l) (v : ℤ) (h1 : -2147483648 ^ l.length ≤ 2 * v) (h2 : 2 * v < 2147483648 ^ l.length) (hv : (big l : ℤ) ≡ v [ZMOD 2147483648 ^ l.length]) : sbig l = v := by
  obtain ⟨r1, r2⟩ := sbig_range l h
  have h3 := (sbig_mod l).trans hv
  rw [Int.modEq_iff_dvd] at h3
  obtain ⟨k, hk⟩ := h3
  have hB : (0 : ℤ) < 2147483648 ^ l.length := by positivity
  generalize (2147483648 : ℤ) ^ l.length = B at *
  have : k = 0 := by
    by_contra hk0
    rcases lt_or_gt_of_ne hk0 with h | h
    · have : B * k ≤ B * (-1) := mul_le_mul_of_nonneg_left (by omega) hB.le
      omega
    · have : B * 1 ≤ B * k := mul_le_mul_of_nonneg_left (by omega) hB.le
      omega
  rw [this] at hk; omega

/-- The value of the words that remain, extended with the sign. -/
def rest (neg : ℤ) (ys : List ℕ) : ℤ := big ys - neg * 2147483648 ^ ys.length

theorem rest_step (neg : ℤ) (s : ℕ) (hs : (s : ℤ) = neg * 2147483647) (ys : List ℕ) : rest neg ys = (ys.headD s : ℕ) + 2147483648 * rest neg ys.tail := by
  unfold rest
  cases ys with
  | nil => simp only [List.headD_nil, List.tail_nil, List.length_nil, pow_zero, big]; push_cast; linarith
  | cons w ys => simp only [List.headD_cons, List.tail_cons, List.length_cons, big_cons, pow_succ]; push_cast; ring

/-- The next word of `y * 2^scl`. -/
theorem scaledWord (wy tw scl : ℕ) (hs : scl ≤ 30) (hw : wy < 2147483648) (ht : tw < 2 ^ scl) :
    ∃ lo hi, ((((wy <<< scl) % 4294967296) &&& 0x7FFFFFFF) ||| tw) = lo ∧ wy >>> (31 - scl) = hi ∧ lo < 2147483648 ∧ hi < 2 ^ scl ∧ lo + 2147483648 * hi = wy * 2 ^ scl + tw := by
  refine ⟨_, _, rfl, rfl, ?_⟩
  rw [and31, Nat.shiftRight_eq_div_pow, Nat.shiftLeft_eq]
  have hB : 2147483648 = 2 ^ scl * 2 ^ (31 - scl) := by rw [← pow_add]; norm_num [show scl + (31 - scl) = 31 by omega]
  have e1 : wy * 2 ^ scl % 4294967296 % 2147483648 = 2 ^ scl * (wy % 2 ^ (31 - scl)) := by
    rw [Nat.mod_mod_of_dvd _ (by norm_num), hB, Nat.mul_comm wy, Nat.mul_mod_mul_left]
  rw [e1, ← Nat.two_pow_add_eq_or_of_lt ht]
  have e2 := Nat.div_add_mod wy (2 ^ (31 - scl))
  have e3 : 0 < 2 ^ (31 - scl) := by positivity
  have e4 : 0 < 2 ^ scl := by positivity
  have e5 := Nat.mod_lt wy e3
  refine ⟨?_, ?_, ?_⟩
  · rw [hB]
    calc 2 ^ scl * (wy % 2 ^ (31 - scl)) + tw < 2 ^ scl * (wy % 2 ^ (31 - scl)) + 2 ^ scl := by omega
      _ = 2 ^ scl * (wy % 2 ^ (31 - scl) + 1) := by ring
      _ ≤ _ := Nat.mul_le_mul_left _ e5
  · rw [Nat.div_lt_iff_lt_mul e3, ← hB]; exact hw
  · nth_rw 1 [hB]
    generalize wy / 2 ^ (31 - scl) = q at *
    generalize wy % 2 ^ (31 - scl) = r at *
    rw [← e2]; ring

theorem headD_lt (ys : List ℕ) (s : ℕ) (hy : Words ys) (hs : s < 2147483648) : ys.headD s < 2147483648 := by
  cases ys with
  | nil => exact hs
  | cons w ys => exact hy.head

theorem words_tail (ys : List ℕ) (hy : Words ys) : Words ys.tail := fun w hw => hy w (List.mem_of_mem_tail hw)

/-! ## zint_add_scaled_mul_small -/

theorem addScaledWord (k : ℤ) (hk : -2147483648 ≤ k ∧ k < 2147483648) (wys x : ℕ) (hw : wys < 2147483648) (hx : x < 2147483648) (cc : ℤ) (hc : -2147483648 ≤ cc ∧ cc < 2147483648) :
    ∃ (lo : ℕ) (hi : ℤ), (((wys * k + x + cc) % 18446744073709551616).toNat % 4294967296 &&& 0x7FFFFFFF) = lo ∧ i32 (((wys * k + x + cc) % 18446744073709551616).toNat >>> 31) = hi ∧
      lo < 2147483648 ∧ (-2147483648 ≤ hi ∧ hi < 2147483648) ∧ (lo : ℤ) + 2147483648 * hi = wys * k + x + cc := by
  refine ⟨_, _, rfl, rfl, ?_⟩
  have h1 : (wys : ℤ) * k ≤ 2147483647 * 2147483647 := by
    rcases le_total 0 k with h | h
    · exact mul_le_mul (by omega) (by omega) h (by norm_num)
    · have := mul_nonneg (show (0 : ℤ) ≤ wys by omega) (show (0 : ℤ) ≤ -k by omega)
      linarith
  have h2 : -(2147483647 * 2147483648) ≤ (wys : ℤ) * k := by
    rcases le_total 0 k with h | h
    · have := mul_nonneg (show (0 : ℤ) ≤ wys by omega) h
      linarith
    · have := mul_le_mul (show (wys : ℤ) ≤ 2147483647 by omega) (show -k ≤ 2147483648 by omega) (show (0 : ℤ) ≤ -k by omega) (by norm_num)
      linarith
  generalize (wys : ℤ) * k = t at *
  rw [and31, shr31]
  unfold i32
  split <;> omega

theorem addScaledLoop_spec (k : ℤ) (hk : -2147483648 ≤ k ∧ k < 2147483648) (scl : ℕ) (hs : scl ≤ 30) (neg : ℤ) (s : ℕ) (hsn : (s : ℤ) = neg * 2147483647) (hs2 : s < 2147483648)
    (xs ys : List ℕ) (hx : Words xs) (hy : Words ys) (tw : ℕ) (ht : tw < 2 ^ scl) (cc : ℤ) (hc : -2147483648 ≤ cc ∧ cc < 2147483648) :
    (addScaledLoop k scl s xs ys tw cc).length = xs.length ∧ Words (addScaledLoop k scl s xs ys tw cc) ∧
      (big (addScaledLoop k scl s xs ys tw cc) : ℤ) ≡ big xs + k * (rest neg ys * 2 ^ scl + tw) + cc [ZMOD 2147483648 ^ xs.length] := by
  induction xs generalizing ys tw cc with
  | nil => exact ⟨rfl, words_nil, by rw [List.length_nil, pow_zero]; exact Int.modEq_one⟩
  | cons x xs ih =>
    obtain ⟨w, hw, e1, e2, h1, h2, h3⟩ := scaledWord (ys.headD s) tw scl hs (headD_lt ys s hy hs2) ht
    obtain ⟨lo, hi, e3, e4, h4, h5, h6⟩ := addScaledWord k hk w x h1 hx.head cc hc
    obtain ⟨i1, i2, i3⟩ := ih ys.tail hx.tail (words_tail ys hy) hw h2 hi h5
    rw [addScaledLoop, e1, e2, e3, e4]
    refine ⟨by simp [i1], words_cons h4 i2, ?_⟩
    rw [big_cons, big_cons, List.length_cons, rest_step neg s hsn ys]
    have i4 : (2147483648 : ℤ) * (big (addScaledLoop k scl s xs ys.tail hw hi) : ℕ) ≡ 2147483648 * (big xs + k * (rest neg ys.tail * 2 ^ scl + hw) + hi) [ZMOD 2147483648 ^ (xs.length + 1)] := by
      rw [pow_succ']
      exact Int.ModEq.mul_left' i3
    have i5 := i4.add_left (lo : ℤ)
    push_cast
    refine i5.trans (modEq_of_eq ?_)
    have h7 : (w : ℤ) + 2147483648 * hw = (ys.headD s : ℕ) * 2 ^ scl + tw := by exact_mod_cast h3
    linear_combination h6 + k * h7

theorem signWord_spec (y : List ℕ) (hy : Words y) (h0 : y.length ≠ 0) :
    ∃ neg : ℤ, (signWord y : ℤ) = neg * 2147483647 ∧ signWord y < 2147483648 ∧ rest neg y = sbig y := by
  unfold signWord rest
  rw [topBit y hy h0, sbig_eq]
  split
  · exact ⟨0, by decide, by decide, by ring⟩
  · exact ⟨1, by decide, by decide, by ring⟩

theorem take_drop_mod (x r : List ℕ) (sch : ℕ) (hl : r.length = (x.drop sch).length) (hx : Words x) (hr : Words r) (v : ℤ) (h : (big r : ℤ) ≡ big (x.drop sch) + v [ZMOD 2147483648 ^ (x.drop sch).length]) :
    (x.take sch ++ r).length = x.length ∧ Words (x.take sch ++ r) ∧ (big (x.take sch ++ r) : ℤ) ≡ big x + v * 2147483648 ^ sch [ZMOD 2147483648 ^ x.length] := by
  have hlen := congrArg List.length (List.take_append_drop sch x)
  rw [List.length_append] at hlen
  refine ⟨by rw [List.length_append, hl, hlen], words_append (hx.take _) hr, ?_⟩
  have hb : big x = big (x.take sch) + 2147483648 ^ (x.take sch).length * big (x.drop sch) := by rw [← big_append, List.take_append_drop]
  rw [big_append, hb, ← hlen, pow_add]
  rcases Nat.lt_or_ge x.length sch with c | c
  · have h1 : (x.drop sch).length = 0 := by rw [List.length_drop]; omega
    have h2 : (x.take sch).length = x.length := by omega
    have h3 : r = [] := by rw [← List.length_eq_zero_iff, hl, h1]
    have h4 : x.drop sch = [] := List.length_eq_zero_iff.1 h1
    rw [h2, h3, h4]
    simp only [big, List.length_nil, pow_zero, mul_one, mul_zero, add_zero]
    rw [Int.modEq_iff_dvd, add_sub_cancel_left]
    exact Dvd.dvd.mul_left (pow_dvd_pow _ c.le) _
  · have h2 : (x.take sch).length = sch := by rw [List.length_take]; omega
    rw [h2]
    have := (Int.ModEq.mul_left' (c := 2147483648 ^ sch) h).add_left (big (x.take sch) : ℤ)
    push_cast
    refine this.trans (modEq_of_eq ?_)
    ring

theorem addScaled_mod (x y : List ℕ) (hx : Words x) (hy : Words y) (h0 : y.length ≠ 0) (k : ℤ) (hk : -2147483648 ≤ k ∧ k < 2147483648) (sch scl : ℕ) (hs : scl ≤ 30) :
    (zintAddScaledMulSmall x y k sch scl).length = x.length ∧ Words (zintAddScaledMulSmall x y k sch scl) ∧
      (big (zintAddScaledMulSmall x y k sch scl) : ℤ) ≡ big x + k * sbig y * 2 ^ (31 * sch + scl) [ZMOD 2147483648 ^ x.length] := by
  obtain ⟨neg, s1, s2, s3⟩ := signWord_spec y hy h0
  obtain ⟨i1, i2, i3⟩ := addScaledLoop_spec k hk scl hs neg (signWord y) s1 s2 (x.drop sch) y (hx.drop _) hy 0 (by positivity) 0 (by norm_num)
  unfold zintAddScaledMulSmall
  rw [if_neg h0]
  rw [s3, Nat.cast_zero, add_zero, add_zero] at i3
  have h := take_drop_mod x _ sch i1 hx i2 _ i3
  refine ⟨h.1, h.2.1, h.2.2.trans (modEq_of_eq ?_)⟩
  rw [pow_add, pow_mul]; norm_num; ring

/-! ## zint_sub_scaled -/

theorem subScaledLoop_spec (scl : ℕ) (hs : scl ≤ 30) (neg : ℤ) (s : ℕ) (hsn : (s : ℤ) = neg * 2147483647) (hs2 : s < 2147483648)
    (xs ys : List ℕ) (hx : Words xs) (hy : Words ys) (tw : ℕ) (ht : tw < 2 ^ scl) (cc : ℕ) (hc : cc ≤ 1) :
    (subScaledLoop scl s xs ys tw cc).length = xs.length ∧ Words (subScaledLoop scl s xs ys tw cc) ∧
      (big (subScaledLoop scl s xs ys tw cc) : ℤ) ≡ big xs + (-(rest neg ys * 2 ^ scl + tw) - cc) [ZMOD 2147483648 ^ xs.length] := by
  induction xs generalizing ys tw cc with
  | nil => exact ⟨rfl, words_nil, by rw [List.length_nil, pow_zero]; exact Int.modEq_one⟩
  | cons x xs ih =>
    obtain ⟨w, hw, e1, e2, h1, h2, h3⟩ := scaledWord (ys.headD s) tw scl hs (headD_lt ys s hy hs2) ht
    obtain ⟨lo, hi, e3, e4, h4, h5, h6⟩ := subWord x w cc hx.head h1 hc
    obtain ⟨i1, i2, i3⟩ := ih ys.tail hx.tail (words_tail ys hy) hw h2 hi h5
    rw [subScaledLoop, e1, e2, e3, e4]
    refine ⟨by simp [i1], words_cons h4 i2, ?_⟩
    rw [big_cons, big_cons, List.length_cons, rest_step neg s hsn ys]
    have i4 : (2147483648 : ℤ) * (big (subScaledLoop scl s xs ys.tail hw hi) : ℕ) ≡ 2147483648 * (big xs + (-(rest neg ys.tail * 2 ^ scl + hw) - hi)) [ZMOD 2147483648 ^ (xs.length + 1)] := by
      rw [pow_succ']
      exact Int.ModEq.mul_left' i3
    have i5 := i4.add_left (lo : ℤ)
    push_cast
    refine i5.trans (modEq_of_eq ?_)
    have h7 : (w : ℤ) + 2147483648 * hw = (ys.headD s : ℕ) * 2 ^ scl + tw := by exact_mod_cast h3
    have h8 : (lo : ℤ) + w + cc = x + 2147483648 * hi := by exact_mod_cast h6
    linear_combination h8 - h7

theorem subScaled_mod (x y : List ℕ) (hx : Words x) (hy : Words y) (h0 : y.length ≠ 0) (sch scl : ℕ) (hs : scl ≤ 30) :
    (zintSubScaled x y sch scl).length = x.length ∧ Words (zintSubScaled x y sch scl) ∧
      (big (zintSubScaled x y sch scl) : ℤ) ≡ big x + -sbig y * 2 ^ (31 * sch + scl) [ZMOD 2147483648 ^ x.length] := by
  obtain ⟨neg, s1, s2, s3⟩ := signWord_spec y hy h0
  obtain ⟨i1, i2, i3⟩ := subScaledLoop_spec scl hs neg (signWord y) s1 s2 (x.drop sch) y (hx.drop _) hy 0 (by positivity) 0 (by norm_num)
  unfold zintSubScaled
  rw [if_neg h0]
  rw [s3, Nat.cast_zero, add_zero, sub_zero] at i3
  have h := take_drop_mod x _ sch i1 hx i2 _ i3
  refine ⟨h.1, h.2.1, h.2.2.trans (modEq_of_eq ?_)⟩
  rw [pow_add, pow_mul]; norm_num; ring

/-! ## poly_sub_scaled -/

/-- The sign with which the product of the coefficients `u` and `v` enters coefficient `i`. -/
def wrap (n u v i : ℕ) : ℤ := if u + v = i then 1 else if u + v = i + n then -1 else 0

/-- All entries are integers of `len` words. -/
def Rows (n len : ℕ) (F : List (List ℕ)) : Prop := F.length = n ∧ ∀ i < n, (F[i]!).length = len ∧ Words F[i]!

theorem row_spec (n len flen : ℕ) (hf0 : flen ≠ 0) (f : List (List ℕ)) (hf : Rows n flen f) (sch scl : ℕ) (hs : scl ≤ 30) (u : ℕ) (hu : u < n) (kf : ℤ) (hk : -2147483648 < kf ∧ kf < 2147483648)
    (F : List (List ℕ)) (hF : Rows n len F) (m : ℕ) (hm : m ≤ n) :
    ∃ F', (List.range m).foldl (fun (st : List (List Nat) × Nat × Int) v =>
      let F := st.1.set st.2.1 (zintAddScaledMulSmall st.1[st.2.1]! f[v]! st.2.2 sch scl)
      if u + v = n - 1 then (F, 0, -st.2.2) else (F, st.2.1 + 1, st.2.2)) (F, u, kf) = (F', (if u + m < n then u + m else u + m - n), (if u + m < n then kf else -kf)) ∧ Rows n len F' ∧
      ∀ i < n, (big F'[i]! : ℤ) ≡ big F[i]! + ∑ v ∈ Finset.range m, wrap n u v i * kf * sbig f[v]! * 2 ^ (31 * sch + scl) [ZMOD 2147483648 ^ len] := by
  induction m with
  | zero => exact ⟨F, by simp [hu], hF, fun i _ => by simp⟩
  | succ m ih =>
    obtain ⟨F', e, hR, hM⟩ := ih (by omega)
    rw [List.range_succ, List.foldl_append, e, List.foldl_cons, List.foldl_nil]
    obtain ⟨pos, hpos⟩ : ∃ pos, (if u + m < n then u + m else u + m - n) = pos := ⟨_, rfl⟩
    obtain ⟨kv, hkv⟩ : ∃ kv, (if u + m < n then kf else -kf) = kv := ⟨_, rfl⟩
    rw [hpos, hkv]
    have hpn : pos < n := by rw [← hpos]; split <;> omega
    have hkb : -2147483648 ≤ kv ∧ kv < 2147483648 := by rw [← hkv]; split <;> omega
    obtain ⟨p1, p2⟩ := hR.2 pos hpn
    obtain ⟨f1, f2⟩ := hf.2 m (by omega)
    obtain ⟨a1, a2, a3⟩ := addScaled_mod F'[pos]! f[m]! p2 f2 (by rw [f1]; exact hf0) kv hkb sch scl hs
    refine ⟨F'.set pos (zintAddScaledMulSmall F'[pos]! f[m]! kv sch scl), ?_, ?_, ?_⟩
    · dsimp only
      by_cases c : u + m = n - 1
      · rw [if_pos c, if_neg (by omega), if_neg (by omega)]
        rw [if_pos (by omega)] at hkv
        rw [hkv, show u + (m + 1) - n = 0 by omega]
      · rw [if_neg c]
        by_cases d : u + (m + 1) < n
        · rw [if_pos d, if_pos d]
          rw [if_pos (by omega)] at hkv hpos
          rw [hkv, ← hpos]; rfl
        · rw [if_neg d, if_neg d]
          rw [if_neg (by omega)] at hkv hpos
          rw [hkv, ← hpos, show u + (m + 1) - n = u + m - n + 1 by omega]
    · refine ⟨by rw [List.length_set]; exact hR.1, fun i hi => ?_⟩
      rw [List.getElem!_eq_getElem?_getD, List.getElem?_set]
      by_cases c : pos = i
      · rw [if_pos c, if_pos (by rw [hR.1]; exact hpn), Option.getD_some]
        exact ⟨a1.trans p1, a2⟩
      · rw [if_neg c, ← List.getElem!_eq_getElem?_getD]; exact hR.2 i hi
    · intro i hi
      rw [List.getElem!_eq_getElem?_getD, List.getElem?_set, Finset.sum_range_succ]
      by_cases c : pos = i
      · rw [if_pos c, if_pos (by rw [hR.1]; exact hpn), Option.getD_some]
        subst c
        rw [p1] at a3
        refine a3.trans ?_
        rw [← add_assoc]
        refine ((hM pos hpn).add_right _).trans (modEq_of_eq ?_)
        have : wrap n u m pos * kf = kv := by
          unfold wrap
          rw [← hkv, ← hpos]
          by_cases d : u + m < n
          · simp [d]
          · rw [if_neg d, if_neg d, if_neg (by omega), if_pos (by omega)]; ring
        rw [this]
      · rw [if_neg c, ← List.getElem!_eq_getElem?_getD]
        have : wrap n u m i = 0 := by
          unfold wrap
          rw [if_neg, if_neg]
          · intro h; apply c; rw [← hpos, if_neg (by omega)]; omega
          · intro h; apply c; rw [← hpos, if_pos (by omega)]; exact h
        rw [this]
        simpa using hM i hi

theorem polySubScaled_mod (logn len flen : ℕ) (hf0 : flen ≠ 0) (F f : List (List ℕ)) (hF : Rows (2 ^ logn) len F) (hf : Rows (2 ^ logn) flen f) (sch scl : ℕ) (hs : scl ≤ 30)
    (k : List ℤ) (hkl : k.length = 2 ^ logn) (hk : ∀ x ∈ k, -2147483648 < x ∧ x < 2147483648) :
    Rows (2 ^ logn) len (polySubScaled F f k sch scl logn) ∧ ∀ i < 2 ^ logn,
      (big (polySubScaled F f k sch scl logn)[i]! : ℤ) ≡ big F[i]! - negCoeff (2 ^ logn) k (f.map sbig) i * 2 ^ (31 * sch + scl) [ZMOD 2147483648 ^ len] := by
  obtain ⟨n, hn⟩ : ∃ n, 2 ^ logn = n := ⟨_, rfl⟩
  unfold polySubScaled
  rw [hn] at hF hf hkl ⊢
  have key : ∀ m ≤ n, ∃ F', (List.range m).foldl (fun F u => subScaledRow n f sch scl u (-(k[u]!)) F) F = F' ∧ Rows n len F' ∧
      ∀ i < n, (big F'[i]! : ℤ) ≡ big F[i]! + ∑ u ∈ Finset.range m, ∑ v ∈ Finset.range n, wrap n u v i * (-(k[u]!)) * sbig f[v]! * 2 ^ (31 * sch + scl) [ZMOD 2147483648 ^ len] := by
    intro m
    induction m with
    | zero => exact fun _ => ⟨F, rfl, hF, fun i _ => by simp⟩
    | succ m ih =>
      intro hm
      obtain ⟨F', e, hR, hM⟩ := ih (by omega)
      rw [List.range_succ, List.foldl_append, e, List.foldl_cons, List.foldl_nil]
      have hkm := hk k[m]! (by rw [getElem!_pos k m (by omega)]; exact List.getElem_mem _)
      obtain ⟨F2, e2, hR2, hM2⟩ := row_spec n len flen hf0 f hf sch scl hs m (by omega) (-(k[m]!)) (by omega) F' hR n le_rfl
      refine ⟨F2, ?_, hR2, fun i hi => ?_⟩
      · unfold subScaledRow; rw [e2]
      · rw [Finset.sum_range_succ, ← add_assoc]
        exact (hM2 i hi).trans ((hM i hi).add_right _)
  obtain ⟨F', e, hR, hM⟩ := key n le_rfl
  rw [e]
  refine ⟨hR, fun i hi => (hM i hi).trans (modEq_of_eq ?_)⟩
  rw [sub_eq_add_neg]
  congr 1
  unfold negCoeff
  rw [Finset.sum_mul, ← Finset.sum_neg_distrib]
  refine Finset.sum_congr rfl fun u hu => ?_
  rw [Finset.sum_mul, ← Finset.sum_neg_distrib]
  refine Finset.sum_congr rfl fun v hv => ?_
  have hu := Finset.mem_range.1 hu
  have hv := Finset.mem_range.1 hv
  have e1 : k.getD u 0 = k[u]! := by rw [List.getD_eq_getElem _ _ (by omega), getElem!_pos k u (by omega)]
  have e2 : (f.map sbig).getD v 0 = sbig f[v]! := by
    rw [List.getD_eq_getElem _ _ (by rw [List.length_map, hf.1]; exact hv), List.getElem_map, getElem!_pos f v (by rw [hf.1]; exact hv)]
  rw [e1, e2]
  unfold wrap
  split
  · ring
  · split <;> ring

end Verif.CRef.Kg
