import Verif.CRef.ZintRed
import Mathlib.Data.Int.GCD

/-! `zint_bezout`, /repo/falcon/nistfalcon/src/keygen.c 1582-1877: what its success means.  See C102 in /verif/properties.jsonl. -/

namespace Verif.CRef.Kg

/-- What holds between two rounds of the outer loop. -/
structure BInv (n : ℕ) (x y : List ℕ) (t : Bez) : Prop where
  la : t.a.length = n + 1
  lb : t.b.length = n + 1
  lu0 : t.u0.length = n + 1
  lu1 : t.u1.length = n + 1
  lv0 : t.v0.length = n + 1
  lv1 : t.v1.length = n + 1
  wa : Words t.a
  wb : Words t.b
  wu0 : Words t.u0
  wu1 : Words t.u1
  wv0 : Words t.v0
  wv1 : Words t.v1
  bu0 : big t.u0 ≤ big y
  bu1 : big t.u1 ≤ big y
  bv0 : big t.v0 ≤ big x
  bv1 : big t.v1 ≤ big x
  ra : (big x : ℤ) * big t.u0 - big y * big t.v0 ≡ big t.a [ZMOD big x * big y]
  rb : (big x : ℤ) * big t.u1 - big y * big t.v1 ≡ big t.b [ZMOD big x * big y]

theorem sign_mul (A B pa pb V : ℤ) (h : A * pa + B * pb = 2147483648 * V) :
    A * (if (if V < 0 then 1 else 0) = 1 then -pa else pa) + B * (if (if V < 0 then 1 else 0) = 1 then -pb else pb) = 2147483648 * |V| := by
  by_cases hv : V < 0
  · simp only [hv, if_true]
    rw [abs_of_neg hv]
    linarith
  · simp only [hv, if_false]
    rw [abs_of_nonneg (by omega)]
    simpa using h

theorem abs_ite (c : Prop) [Decidable c] (p : ℤ) : |if c then -p else p| = |p| := by
  split
  · rw [abs_neg]
  · rfl

/-- Combining a congruence modulo `y` and one modulo `x`. -/
theorem relStep (X Y u0 u1 v0 v1 A B p q u v A' : ℤ) (hc : IsCoprime (2147483648 : ℤ) (X * Y)) (h0 : X * u0 - Y * v0 ≡ A [ZMOD X * Y]) (h1 : X * u1 - Y * v1 ≡ B [ZMOD X * Y])
    (hA : A * p + B * q = 2147483648 * A') (hu : 2147483648 * u ≡ u0 * p + u1 * q [ZMOD Y]) (hv : 2147483648 * v ≡ v0 * p + v1 * q [ZMOD X]) :
    X * u - Y * v ≡ A' [ZMOD X * Y] := by
  have d1 := hu.mul_left' (c := X)
  have d2 := hv.mul_left' (c := Y)
  rw [mul_comm Y X] at d2
  have d3 := (h0.mul_right p).add (h1.mul_right q)
  have d4 := d1.sub d2
  have d5 : 2147483648 * (X * u - Y * v) ≡ 2147483648 * A' [ZMOD X * Y] := by
    rw [← hA]
    refine Int.ModEq.trans ?_ d3
    refine Int.ModEq.trans (modEq_of_eq ?_) (d4.trans (modEq_of_eq ?_)) <;> ring
  rw [Int.modEq_iff_dvd] at d5 ⊢
  rw [← mul_sub] at d5
  exact hc.symm.dvd_of_dvd_mul_left d5

theorem head_odd (x : List ℕ) (n : ℕ) (h : x.length = n + 1) (ho : x[0]! % 2 = 1) : big x % 2 = 1 := by
  obtain ⟨k, hk⟩ := head_big x n h
  omega

theorem head_word (x : List ℕ) (n : ℕ) (h : x.length = n + 1) (hw : Words x) : x[0]! < 2147483648 := by
  obtain ⟨w, l, rfl⟩ := List.exists_cons_of_length_eq_add_one h
  simpa using hw.head

theorem coprime31 (X Y : ℕ) (hx : X % 2 = 1) (hy : Y % 2 = 1) : IsCoprime (2147483648 : ℤ) ((X : ℤ) * Y) := by
  have h : Nat.Coprime 2147483648 (X * Y) := by
    rw [show 2147483648 = 2 ^ 31 by norm_num]
    apply Nat.Coprime.pow_left
    rw [Nat.coprime_comm, Nat.coprime_two_right, Nat.odd_iff, Nat.mul_mod, hx, hy]
  have := Nat.isCoprime_iff_coprime.mpr h
  exact_mod_cast this

theorem bezRound_inv (n : ℕ) (x y : List ℕ) (lx : x.length = n + 1) (ly : y.length = n + 1) (wx : Words x) (wy : Words y) (ox : x[0]! % 2 = 1) (oy : y[0]! % 2 = 1)
    (t : Bez) (h : BInv n x y t) :
    BInv n x y (bezRound x y (modpNinv31 x[0]!) (modpNinv31 y[0]!) t) ∧ big (bezRound x y (modpNinv31 x[0]!) (modpNinv31 y[0]!) t).u0 < big y ∧
      big (bezRound x y (modpNinv31 x[0]!) (modpNinv31 y[0]!) t).v0 < big x := by
  obtain ⟨x0, hx0⟩ := ninv31_eq _ (head_word x n lx wx) ox
  obtain ⟨y0, hy0⟩ := ninv31_eq _ (head_word y n ly wy) oy
  have hX := head_odd x n lx ox
  have hY := head_odd y n ly oy
  obtain ⟨la, lb, lu0, lu1, lv0, lv1, wa, wb, wu0, wu1, wv0, wv1, bu0, bu1, bv0, bv1, ra, rb⟩ := h
  obtain ⟨p, q, ⟨V, hV⟩, ⟨U, hU⟩⟩ := redFactors_spec n t.a t.b la lb
  unfold bezRound
  dsimp only
  generalize redFactors t.a t.b = f at *
  obtain ⟨a', b', r, e, la', lb', wa', wb', va, vb, r0, r1⟩ := coReduce_spec n t.a t.b la lb wa wb f.pa f.pb f.qa f.qb p q V U hV hU
  rw [e]
  dsimp only
  have sp : ∀ z w : ℤ, |z| + |w| ≤ 2147483648 → |z| ≤ 2147483648 ∧ |w| ≤ 2147483648 := fun z w h => by
    have := abs_nonneg z; have := abs_nonneg w; omega
  rw [r0, r1]
  have c1 : (if V < 0 then 1 else 0) ≤ 1 := by split <;> norm_num
  have c2 : (if U < 0 then 1 else 0) ≤ 1 := by split <;> norm_num
  have f1 := fixSign_spec f.pa (sp _ _ p).1 _ c1
  have f2 := fixSign_spec f.pb (sp _ _ p).2 _ c1
  have f3 := fixSign_spec f.qa (sp _ _ q).1 _ c2
  have f4 := fixSign_spec f.qb (sp _ _ q).2 _ c2
  have s1 := sign_mul _ _ _ _ _ hV
  have s2 := sign_mul _ _ _ _ _ hU
  rw [← f1, ← f2, ← va] at s1
  rw [← f3, ← f4, ← vb] at s2
  have p' : |(fixSign f.pa (if V < 0 then 1 else 0)).toInt| + |(fixSign f.pb (if V < 0 then 1 else 0)).toInt| ≤ 2147483648 := by
    rw [f1, f2, abs_ite, abs_ite]; exact p
  have q' : |(fixSign f.qa (if U < 0 then 1 else 0)).toInt| + |(fixSign f.qb (if U < 0 then 1 else 0)).toInt| ≤ 2147483648 := by
    rw [f3, f4, abs_ite, abs_ite]; exact q
  generalize fixSign f.pa (if V < 0 then 1 else 0) = pa at *
  generalize fixSign f.pb (if V < 0 then 1 else 0) = pb at *
  generalize fixSign f.qa (if U < 0 then 1 else 0) = qa at *
  generalize fixSign f.qb (if U < 0 then 1 else 0) = qb at *
  obtain ⟨u0', u1', eu, lu0', lu1', wu0', wu1', bu0', bu1', mu0, mu1⟩ := coReduceMod_spec n t.u0 t.u1 y lu0 lu1 ly wu0 wu1 wy (modpNinv31 y[0]!) hy0 bu0 bu1 (by omega) pa pb qa qb p' q'
  obtain ⟨v0', v1', ev, lv0', lv1', wv0', wv1', bv0', bv1', mv0, mv1⟩ := coReduceMod_spec n t.v0 t.v1 x lv0 lv1 lx wv0 wv1 wx (modpNinv31 x[0]!) hx0 bv0 bv1 (by omega) pa pb qa qb p' q'
  rw [eu, ev]
  have hc := coprime31 _ _ hX hY
  refine ⟨⟨la', lb', lu0', lu1', lv0', lv1', wa', wb', wu0', wu1', wv0', wv1', bu0'.le, bu1'.le, bv0'.le, bv1'.le, ?_, ?_⟩, bu0', bv0'⟩
  · exact relStep _ _ _ _ _ _ _ _ _ _ _ _ _ hc ra rb s1 mu0 mv0
  · exact relStep _ _ _ _ _ _ _ _ _ _ _ _ _ hc ra rb s2 mu1 mv1

theorem bezInit_inv (n : ℕ) (x y : List ℕ) (lx : x.length = n + 1) (ly : y.length = n + 1) (wx : Words x) (wy : Words y) (ox : x[0]! % 2 = 1) (oy : y[0]! % 2 = 1) :
    BInv n x y (bezInit x y) := by
  have hY := head_odd y n ly oy
  have hw := head_word x n lx wx
  obtain ⟨w, l, rfl⟩ := List.exists_cons_of_length_eq_add_one lx
  have hw0 : (w :: l)[0]! = w := rfl
  rw [hw0] at ox hw
  have hs : sub32 w 1 = w - 1 := by unfold sub32; omega
  have hv1 : big ((w :: l).set 0 (sub32 (w :: l)[0]! 1)) + 1 = big (w :: l) := by
    rw [hw0, hs, List.set_cons_zero, big_cons, big_cons]; omega
  have hl : l.length = n := by simpa using lx
  have hu0 : big (1 :: List.replicate ((w :: l).length - 1) 0) = 1 := by rw [big_cons, big_replicate]
  refine ⟨lx, ly, ?_, ly, ?_, ?_, wx, wy, ?_, wy, words_replicate _, ?_, ?_, le_refl _, ?_, ?_, ?_, ?_⟩
  · show (1 :: List.replicate ((w :: l).length - 1) 0).length = n + 1
    simp [hl]
  · show (List.replicate (w :: l).length 0).length = n + 1
    simp [hl]
  · show ((w :: l).set 0 _).length = n + 1
    simp [hl]
  · exact words_cons (by norm_num) (words_replicate _)
  · show Words ((w :: l).set 0 (sub32 (w :: l)[0]! 1))
    rw [hw0, hs, List.set_cons_zero]
    exact words_cons (by omega) wx.tail
  · show big (1 :: List.replicate ((w :: l).length - 1) 0) ≤ _
    rw [hu0]; omega
  · show big (List.replicate (w :: l).length 0) ≤ _
    rw [big_replicate]; omega
  · show big ((w :: l).set 0 (sub32 (w :: l)[0]! 1)) ≤ _
    omega
  · show (big (w :: l) : ℤ) * big (1 :: List.replicate ((w :: l).length - 1) 0) - big y * big (List.replicate (w :: l).length 0) ≡ big (w :: l) [ZMOD _]
    rw [hu0, big_replicate]
    exact modEq_of_eq (by push_cast; ring)
  · show (big (w :: l) : ℤ) * big y - big y * big ((w :: l).set 0 (sub32 (w :: l)[0]! 1)) ≡ big y [ZMOD _]
    refine modEq_of_eq ?_
    rw [← hv1]; push_cast; ring

theorem or_zero_of (l : List ℕ) (r : ℕ) (h : l.foldl (fun rc w => rc ||| w) r = 0) : r = 0 ∧ ∀ w ∈ l, w = 0 := by
  induction l generalizing r with
  | nil => exact ⟨h, fun w hw => by simp at hw⟩
  | cons a l ih =>
    obtain ⟨h1, h2⟩ := ih _ h
    have h3 := Nat.or_eq_zero_iff.mp h1
    refine ⟨h3.1, fun w hw => ?_⟩
    rcases List.mem_cons.mp hw with rfl | hw
    · exact h3.2
    · exact h2 w hw

theorem or_lt (l : List ℕ) (r : ℕ) (hr : r < 2 ^ 31) (hl : Words l) : l.foldl (fun rc w => rc ||| w) r < 2 ^ 31 := by
  induction l generalizing r with
  | nil => exact hr
  | cons a l ih => exact ih _ (Nat.or_lt_two_pow hr hl.head) hl.tail

theorem big_zeros (l : List ℕ) (h : ∀ w ∈ l, w = 0) : big l = 0 := by
  induction l with
  | nil => rfl
  | cons a l ih =>
    rw [big_cons, h a (by simp), ih (fun w hw => h w (by simp [hw]))]

theorem nz_top (rc : ℕ) (h : rc < 2147483648) (h0 : rc ≠ 0) : (rc ||| neg32 rc) >>> 31 = 1 := by
  have h1 : neg32 rc = 4294967296 - rc := by unfold neg32 sub32; omega
  have h2 : rc ||| neg32 rc < 2 ^ 32 := Nat.or_lt_two_pow (by omega) (by rw [h1]; omega)
  have h3 : neg32 rc ≤ rc ||| neg32 rc := Nat.right_le_or
  rw [shr31]
  omega

theorem bezResult_one (n : ℕ) (a : List ℕ) (la : a.length = n + 1) (wa : Words a) (x0 y0 : ℕ) (h : bezResult a x0 y0 = 1) : big a = 1 ∧ x0 % 2 = 1 ∧ y0 % 2 = 1 := by
  unfold bezResult at h
  dsimp only at h
  obtain ⟨w, l, rfl⟩ := List.exists_cons_of_length_eq_add_one la
  rw [show (w :: l).tail = l from rfl, show (w :: l)[0]! = w from rfl] at h
  have hw := wa.head
  have hlt := or_lt l (w ^^^ 1) (Nat.xor_lt_two_pow (show w < 2 ^ 31 by omega) (by norm_num)) wa.tail
  obtain ⟨rc, hrc⟩ : ∃ rc, l.foldl (fun rc w => rc ||| w) (w ^^^ 1) = rc := ⟨_, rfl⟩
  rw [hrc] at h hlt
  by_cases h0 : rc = 0
  · rw [h0] at hrc
    obtain ⟨h1, h2⟩ := or_zero_of _ _ hrc
    have hw1 : w = 1 := by
      have := congrArg (· ^^^ 1) h1
      simpa [Nat.xor_assoc] using this
    rw [h0, show sub32 1 ((0 ||| neg32 0) >>> 31) = 1 by decide] at h
    have e1 : (1 &&& x0 &&& y0).testBit 0 = true := by rw [h]; rfl
    rw [Nat.testBit_and, Nat.testBit_and, Nat.testBit_zero, Nat.testBit_zero, Nat.testBit_zero] at e1
    simp at e1
    exact ⟨by rw [big_cons, big_zeros l h2, hw1], e1.1, e1.2⟩
  · rw [nz_top rc (by omega) h0, show sub32 1 1 = 0 by decide, Nat.zero_and, Nat.zero_and] at h
    exact absurd h (by norm_num)

theorem bezLoop (n : ℕ) (x y : List ℕ) (lx : x.length = n + 1) (ly : y.length = n + 1) (wx : Words x) (wy : Words y) (ox : x[0]! % 2 = 1) (oy : y[0]! % 2 = 1) (k : ℕ) :
    BInv n x y ((List.range k).foldl (fun t _ => bezRound x y (modpNinv31 x[0]!) (modpNinv31 y[0]!) t) (bezInit x y)) := by
  induction k with
  | zero => exact bezInit_inv n x y lx ly wx wy ox oy
  | succ k ih =>
    rw [List.range_succ, List.foldl_append]
    exact (bezRound_inv n x y lx ly wx wy ox oy _ ih).1

/-- When it reports success, the result is the reduced solution of the Bezout equation. -/
theorem C102_bezout (x y u v : List ℕ) (lxy : x.length = y.length) (wx : Words x) (wy : Words y) (hy : 1 < big y) (h : zintBezout x y = (u, v, 1)) :
    (big x : ℤ) * big u - big y * big v = 1 ∧ big u < big y ∧ big v < big x ∧ u.length = x.length ∧ v.length = x.length ∧ Words u ∧ Words v := by
  unfold zintBezout at h
  by_cases l0 : x.length = 0
  · rw [if_pos l0] at h; simp at h
  · rw [if_neg l0] at h
    obtain ⟨n, lx⟩ : ∃ n, x.length = n + 1 := ⟨x.length - 1, by omega⟩
    have ly : y.length = n + 1 := by omega
    obtain ⟨k, hk⟩ : ∃ k, 62 * x.length / 30 = k := ⟨_, rfl⟩
    rw [hk] at h
    simp only [Prod.mk.injEq] at h
    obtain ⟨h1, h2, h3⟩ := h
    have hodd : x[0]! % 2 = 1 ∧ y[0]! % 2 = 1 := by
      unfold bezResult at h3
      dsimp only at h3
      generalize sub32 _ _ = s at h3
      have e1 : (s &&& x[0]! &&& y[0]!).testBit 0 = true := by rw [h3]; rfl
      rw [Nat.testBit_and, Nat.testBit_and, Nat.testBit_zero, Nat.testBit_zero, Nat.testBit_zero] at e1
      simp at e1
      exact ⟨by simpa using e1.1.2, by simpa using e1.2⟩
    obtain ⟨ox, oy⟩ := hodd
    have hI := bezLoop n x y lx ly wx wy ox oy k
    rw [List.range_succ, List.foldl_append] at h1 h2 h3
    obtain ⟨hI', b1, b2⟩ := bezRound_inv n x y lx ly wx wy ox oy _ hI
    generalize (List.range k).foldl (fun t _ => bezRound x y (modpNinv31 x[0]!) (modpNinv31 y[0]!) t) (bezInit x y) = t at *
    simp only [List.foldl_cons, List.foldl_nil] at h1 h2 h3
    generalize bezRound x y (modpNinv31 x[0]!) (modpNinv31 y[0]!) t = t' at *
    obtain ⟨ha, _⟩ := bezResult_one n t'.a hI'.la hI'.wa _ _ h3
    have hr := hI'.ra
    rw [h1] at hr b1
    rw [h2] at hr b2
    have w1 := hI'.wu0
    have w2 := hI'.wv0
    have l1 := hI'.lu0
    have l2 := hI'.lv0
    rw [h1] at w1 l1
    rw [h2] at w2 l2
    refine ⟨?_, b1, b2, by omega, by omega, w1, w2⟩
    rw [ha, Int.modEq_iff_dvd] at hr
    obtain ⟨m, hm⟩ := hr
    generalize big x = X at *
    generalize big y = Y at *
    generalize big u = U at *
    generalize big v = V at *
    have hX : (0 : ℤ) < X := by omega
    have hY : (1 : ℤ) < Y := by omega
    have hU : (U : ℤ) + 1 ≤ Y := by omega
    have hV : (V : ℤ) + 1 ≤ X := by omega
    have hU0 : (0 : ℤ) ≤ U := by omega
    have hV0 : (0 : ℤ) ≤ V := by omega
    push_cast at hm
    generalize (X : ℤ) = X' at *
    generalize (Y : ℤ) = Y' at *
    generalize (U : ℤ) = U' at *
    generalize (V : ℤ) = V' at *
    have m0 : m = 0 := by
      rcases lt_trichotomy m 0 with hm0 | hm0 | hm0
      · have : X' * Y' * m ≤ X' * Y' * (-1) := mul_le_mul_of_nonneg_left (by omega) (by positivity)
        nlinarith
      · exact hm0
      · have : X' * Y' * 1 ≤ X' * Y' * m := mul_le_mul_of_nonneg_left (by omega) (by nlinarith)
        nlinarith
    rw [m0, mul_zero] at hm
    omega

/-- Success implies that the two numbers are odd and have no common factor. -/
theorem C102_coprime (x y u v : List ℕ) (lxy : x.length = y.length) (wx : Words x) (wy : Words y) (hy : 1 < big y) (h : zintBezout x y = (u, v, 1)) : Nat.Coprime (big x) (big y) := by
  obtain ⟨e, _⟩ := C102_bezout x y u v lxy wx wy hy h
  rw [← Nat.isCoprime_iff_coprime]
  exact ⟨big u, -big v, by linarith⟩

/-- The solution is the only reduced one. -/
theorem C102_unique (x y u v : List ℕ) (lxy : x.length = y.length) (wx : Words x) (wy : Words y) (hy : 1 < big y) (h : zintBezout x y = (u, v, 1)) (U V : ℕ) (hU : U < big y)
    (e : (big x : ℤ) * U - big y * V = 1) : big u = U ∧ big v = V := by
  obtain ⟨e1, b1, b2, _⟩ := C102_bezout x y u v lxy wx wy hy h
  have hc := C102_coprime x y u v lxy wx wy hy h
  have hd : (big y : ℤ) ∣ big x * ((big u : ℤ) - U) := ⟨(big v : ℤ) - V, by linarith⟩
  have hd2 := (Nat.isCoprime_iff_coprime.mpr hc).symm.dvd_of_dvd_mul_left hd
  have hu : (big u : ℤ) = U := by
    refine eq_of_modEq (N := big y) ?_ (by omega) (by omega) (by omega) (by omega)
    exact ((Int.modEq_iff_dvd).mpr hd2).symm
  refine ⟨by omega, ?_⟩
  rw [hu] at e1
  have : (big y : ℤ) * (big v - V) = 0 := by linarith
  rcases mul_eq_zero.mp this with h0 | h0 <;> omega

/-- With `y = 1` it reports success with a wrong answer: for `x = 7` it returns `u = 0`, `v = 6`, and `7·0 − 1·6` is not 1. -/
theorem C102_one_false : ¬ ∀ x y u v : List ℕ, x.length = y.length → Words x → Words y → zintBezout x y = (u, v, 1) → (big x : ℤ) * big u - big y * big v = 1 := by
  intro h
  have e : zintBezout [7] [1] = ([0], [6], 1) := by decide +kernel
  have := h [7] [1] [0] [6] rfl (by unfold Words; decide) (by unfold Words; decide) e
  revert this
  decide

example : zintBezout [3] [5] = ([2], [1], 1) := by decide +kernel
example : (zintBezout [9] [15]).2.2 = 0 := by decide +kernel
example : (zintBezout [123456789, 987654321, 12345] [2147483647, 1234567, 77777]).2.2 = 1 := by decide +kernel
example : 1 < big [2147483647, 1234567, 77777] ∧ Words [123456789, 987654321, 12345] ∧ Words [2147483647, 1234567, 77777] := by
  refine ⟨by decide, by unfold Words; decide, by unfold Words; decide⟩

end Verif.CRef.Kg
