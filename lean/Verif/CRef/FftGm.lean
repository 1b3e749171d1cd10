import Verif.CRef.FftErr
import Verif.CRef.FftSpec

/-! # Accuracy of the table of roots of unity -/

namespace Verif.CRef.Fft

open Verif.CRef.Fpr

/-- A word times `2^62`, for words of magnitude at least `2^-10`. -/
def iv (w : ℕ) : ℤ := if w / 2 ^ 52 % 2 ^ 11 = 0 then 0 else if w / 2 ^ 63 = 0 then (((2 ^ 52 + w % 2 ^ 52) * 2 ^ (w / 2 ^ 52 % 2 ^ 11 - 1013) : ℕ) : ℤ) else -(((2 ^ 52 + w % 2 ^ 52) * 2 ^ (w / 2 ^ 52 % 2 ^ 11 - 1013) : ℕ) : ℤ)

/-- The word is in range. -/
def wOk (w : ℕ) : Bool := decide (w < 2 ^ 64) && (decide (w / 2 ^ 52 % 2 ^ 11 = 0 ∧ w % 2 ^ 52 = 0) || decide (1013 ≤ w / 2 ^ 52 % 2 ^ 11 ∧ w / 2 ^ 52 % 2 ^ 11 ≤ 1023))

/-- Entry `2 i` is a square root, in the first quadrant, of entry `i`, and entry `2 i + 1` is entry `2 i` times the imaginary unit. -/
def gmOk (a b c d e f : ℕ) : Bool :=
  wOk a && wOk b && wOk c && wOk d && wOk e && wOk f && decide (0 < iv c) && decide (0 < iv d) && decide (iv e = -iv d) && decide (iv f = iv c) &&
  decide ((iv c * iv c - iv d * iv d - iv a * 2 ^ 62).natAbs ≤ 2 ^ 72) && decide ((2 * (iv c * iv d) - iv b * 2 ^ 62).natAbs ≤ 2 ^ 72)

def gmAll : List ℕ → List ℕ → Bool
  | a :: b :: P, c :: d :: e :: f :: Q => gmOk a b c d e f && gmAll P Q
  | _, _ => true

theorem gm_table : gmAll (gmTab.drop 2) (gmTab.drop 4) = true := by decide +kernel
theorem gm_length : gmTab.length = 2048 := by decide +kernel

theorem gmAll_get : ∀ (i : ℕ) (P Q : List ℕ), gmAll P Q = true → 2 * i + 1 < P.length → 4 * i + 3 < Q.length →
    gmOk P[2 * i]! P[2 * i + 1]! Q[4 * i]! Q[4 * i + 1]! Q[4 * i + 2]! Q[4 * i + 3]! = true := by
  intro i
  induction i with
  | zero =>
    intro P Q h hP hQ
    match P, Q, h, hP, hQ with
    | a :: b :: P, c :: d :: e :: f :: Q, h, _, _ =>
      unfold gmAll at h
      rw [Bool.and_eq_true] at h
      exact h.1
  | succ i ih =>
    intro P Q h hP hQ
    match P, Q, h, hP, hQ with
    | a :: b :: P, c :: d :: e :: f :: Q, h, hP, hQ =>
      unfold gmAll at h
      rw [Bool.and_eq_true] at h
      have := ih P Q h.2 (by simp only [List.length_cons] at hP; omega) (by simp only [List.length_cons] at hQ; omega)
      simpa [show 2 * (i + 1) = 2 * i + 1 + 1 by ring, show 4 * (i + 1) = 4 * i + 1 + 1 + 1 + 1 by ring] using this

theorem gm_ok (K : ℕ) (h1 : 1 ≤ K) (h2 : K < 512) :
    gmOk gmTab[2 * K]! gmTab[2 * K + 1]! gmTab[4 * K]! gmTab[4 * K + 1]! gmTab[4 * K + 2]! gmTab[4 * K + 3]! = true := by
  have := gmAll_get (K - 1) _ _ gm_table (by rw [List.length_drop, gm_length]; omega) (by rw [List.length_drop, gm_length]; omega)
  have g : ∀ a j : ℕ, (gmTab.drop a)[j]! = gmTab[a + j]! := by
    intro a j; rw [List.getElem!_eq_getElem?_getD, List.getElem?_drop, ← List.getElem!_eq_getElem?_getD]
  simp only [g] at this
  rw [show 2 + 2 * (K - 1) = 2 * K by omega, show 2 + (2 * (K - 1) + 1) = 2 * K + 1 by omega, show 4 + 4 * (K - 1) = 4 * K by omega, show 4 + (4 * (K - 1) + 1) = 4 * K + 1 by omega,
    show 4 + (4 * (K - 1) + 2) = 4 * K + 2 by omega, show 4 + (4 * (K - 1) + 3) = 4 * K + 3 by omega] at this
  exact this

theorem wOk_val (w : ℕ) (h : wOk w = true) : Ok (BitVec.ofNat 64 w) ∧ val (BitVec.ofNat 64 w) = (iv w : ℝ) / 2 ^ 62 := by
  unfold wOk at h
  rw [Bool.and_eq_true, Bool.or_eq_true, decide_eq_true_eq, decide_eq_true_eq, decide_eq_true_eq] at h
  obtain ⟨h0, h⟩ := h
  have e : (BitVec.ofNat 64 w).toNat = w := by rw [BitVec.toNat_ofNat, Nat.mod_eq_of_lt h0]
  have hs : w / 2 ^ 63 < 2 := by omega
  unfold Ok val expo mant sgn iv
  rw [e]
  generalize w / 2 ^ 52 % 2 ^ 11 = x at *
  generalize w % 2 ^ 52 = m at *
  generalize w / 2 ^ 63 = s at *
  refine ⟨⟨by omega, fun h' => by omega⟩, ?_⟩
  by_cases hx : x = 0
  · rw [if_pos hx, if_pos hx]; simp
  · rw [if_neg hx, if_neg hx]
    have h3 : 1013 ≤ x := by omega
    have e2 : (2 : ℝ) ^ ((x : ℤ) - 1075) = 2 ^ (x - 1013) / 2 ^ 62 := by
      obtain ⟨y, rfl⟩ := Nat.exists_eq_add_of_le h3
      rw [show ((1013 + y : ℕ) : ℤ) - 1075 = (y : ℤ) - (62 : ℕ) by push_cast; ring, zpow_sub₀ (by norm_num), zpow_natCast, zpow_natCast, Nat.add_sub_cancel_left]
    rw [e2]
    interval_cases s
    · rw [if_pos rfl]; push_cast; ring
    · rw [if_neg (by norm_num)]; push_cast; ring

/-- The entry of the table of index `2^l + u`. -/
noncomputable def gmE (l u : ℕ) : ℂ := Complex.exp ((2 * bitrev l u + 1 : ℕ) * Real.pi * Complex.I / 2 ^ (l + 1))

theorem bitrev_lt : ∀ k j, bitrev k j < 2 ^ k
  | 0, _ => by unfold bitrev; norm_num
  | k + 1, j => by
    unfold bitrev
    have := bitrev_lt k (j / 2)
    have h2 : j % 2 < 2 := Nat.mod_lt _ (by norm_num)
    have : j % 2 * 2 ^ k ≤ 1 * 2 ^ k := Nat.mul_le_mul_right _ (by omega)
    rw [pow_succ]; omega

theorem gmE_norm (l u : ℕ) : ‖gmE l u‖ = 1 := by
  unfold gmE
  rw [show ((2 * bitrev l u + 1 : ℕ) * Real.pi * Complex.I / 2 ^ (l + 1) : ℂ) = (((2 * bitrev l u + 1 : ℕ) * Real.pi / 2 ^ (l + 1) : ℝ) : ℂ) * Complex.I by push_cast; ring]
  exact Complex.norm_exp_ofReal_mul_I _

theorem gmE_sq (l u : ℕ) : gmE (l + 1) (2 * u) ^ 2 = gmE l u := by
  unfold gmE
  rw [← Complex.exp_nat_mul]
  congr 1
  rw [bitrev, show 2 * u % 2 = 0 by omega, show 2 * u / 2 = u by omega]
  push_cast; field_simp; ring

theorem gmE_odd (l u : ℕ) : gmE (l + 1) (2 * u + 1) = Complex.I * gmE (l + 1) (2 * u) := by
  unfold gmE
  refine Eq.trans ?_ (congrArg (· * _) Complex.exp_pi_div_two_mul_I)
  rw [← Complex.exp_add]
  congr 1
  rw [bitrev, bitrev, show 2 * u % 2 = 0 by omega, show 2 * u / 2 = u by omega, show (2 * u + 1) % 2 = 1 by omega, show (2 * u + 1) / 2 = u by omega]
  push_cast; field_simp; ring

theorem gmE_quadrant (l u : ℕ) : 0 < (gmE (l + 1) (2 * u)).re ∧ 0 < (gmE (l + 1) (2 * u)).im := by
  unfold gmE
  rw [show ((2 * bitrev (l + 1) (2 * u) + 1 : ℕ) * Real.pi * Complex.I / 2 ^ (l + 1 + 1) : ℂ) = (((2 * bitrev (l + 1) (2 * u) + 1 : ℕ) * Real.pi / 2 ^ (l + 1 + 1) : ℝ) : ℂ) * Complex.I by push_cast; ring]
  rw [Complex.exp_ofReal_mul_I_re, Complex.exp_ofReal_mul_I_im]
  rw [bitrev, show 2 * u % 2 = 0 by omega, show 2 * u / 2 = u by omega]
  have h := bitrev_lt l u
  have hp := Real.pi_pos
  have h0 : (0 : ℝ) < ((2 * (0 * 2 ^ l + bitrev l u) + 1 : ℕ) * Real.pi / 2 ^ (l + 1 + 1) : ℝ) := by positivity
  have h1 : ((2 * (0 * 2 ^ l + bitrev l u) + 1 : ℕ) * Real.pi / 2 ^ (l + 1 + 1) : ℝ) < Real.pi / 2 := by
    rw [div_lt_div_iff₀ (by positivity) (by norm_num)]
    have : ((2 * (0 * 2 ^ l + bitrev l u) + 1 : ℕ) : ℝ) * 2 < 2 ^ (l + 1 + 1) := by
      have : (2 * (0 * 2 ^ l + bitrev l u) + 1) * 2 < 2 ^ (l + 1 + 1) := by rw [pow_succ, pow_succ]; omega
      exact_mod_cast this
    nlinarith
  exact ⟨Real.cos_pos_of_mem_Ioo ⟨by linarith, h1⟩, Real.sin_pos_of_pos_of_lt_pi h0 (by linarith)⟩

/-- Square roots in the first quadrant are close when the squares are. -/
theorem sqrt_stable (g E : ℂ) (hg : 0 < g.re ∧ 0 < g.im) (hE : 0 < E.re ∧ 0 < E.im) (hn : ‖E‖ = 1) (d : ℝ) (hd : ‖g ^ 2 - E ^ 2‖ ≤ d) (hd2 : d ≤ 1 / 8) : ‖g - E‖ ≤ d * (4 / 7) := by
  have e : ‖g - E‖ * ‖g + E‖ = ‖g ^ 2 - E ^ 2‖ := by rw [← norm_mul]; congr 1; ring
  have hsum : 1 ≤ ‖g + E‖ := by
    have h1 : ‖E‖ ^ 2 ≤ ‖g + E‖ ^ 2 := by
      rw [← Complex.normSq_eq_norm_sq, ← Complex.normSq_eq_norm_sq, Complex.normSq_apply, Complex.normSq_apply, Complex.add_re, Complex.add_im]
      nlinarith [mul_pos hg.1 hE.1, mul_pos hg.2 hE.2, mul_pos hg.1 hg.1, mul_pos hg.2 hg.2]
    rw [hn] at h1
    nlinarith [norm_nonneg (g + E)]
  have h1 : ‖g - E‖ ≤ d := by nlinarith [norm_nonneg (g - E)]
  have h2 : 2 - 1 / 8 ≤ ‖g + E‖ := by
    have : ‖(2 : ℂ) * E‖ ≤ ‖g + E‖ + ‖g - E‖ := by
      have := norm_sub_le (g + E) (g - E)
      rwa [show g + E - (g - E) = 2 * E by ring] at this
    rw [norm_mul, hn] at this
    simp at this
    linarith
  nlinarith [norm_nonneg (g - E)]

theorem gm_close : ∀ (l : ℕ), l ≤ 9 → ∀ u < 2 ^ l, Good (gm (2 ^ l + u)) ∧ ‖cv (gm (2 ^ l + u)) - gmE l u‖ ≤ 4 * uu := by
  intro l
  induction l with
  | zero =>
    intro _ u hu
    have : u = 0 := by simpa using hu
    subst this
    have e1 : gm (2 ^ 0 + 0) = (0x8000000000000000#64, 0x3FF0000000000000#64) := by decide +kernel
    have e2 : cv (gm (2 ^ 0 + 0)) = gmE 0 0 := by
      rw [e1]
      unfold cv gmE bitrev
      rw [show ((2 * 0 + 1 : ℕ) * Real.pi * Complex.I / 2 ^ (0 + 1) : ℂ) = Real.pi / 2 * Complex.I by push_cast; ring, Complex.exp_pi_div_two_mul_I]
      have a := wOk_val 0x8000000000000000 (by decide +kernel)
      have b := wOk_val 0x3FF0000000000000 (by decide +kernel)
      apply Complex.ext
      · show val (BitVec.ofNat 64 0x8000000000000000) = _
        rw [a.2, show iv 0x8000000000000000 = 0 by decide +kernel]; simp
      · show val (BitVec.ofNat 64 0x3FF0000000000000) = _
        rw [b.2, show iv 0x3FF0000000000000 = 2 ^ 62 by decide +kernel]; norm_num
    refine ⟨?_, ?_⟩
    · rw [e1]; exact ⟨(wOk_val 0x8000000000000000 (by decide +kernel)).1, (wOk_val 0x3FF0000000000000 (by decide +kernel)).1⟩
    · rw [e2, sub_self, norm_zero]; exact mul_nonneg (by norm_num) uu_pos.le
  | succ l ih =>
    intro hl u' hu'
    obtain ⟨u, b, hb, rfl⟩ : ∃ u b, b < 2 ∧ u' = 2 * u + b := ⟨u' / 2, u' % 2, Nat.mod_lt _ (by norm_num), by omega⟩
    have hu : u < 2 ^ l := by rw [pow_succ] at hu'; omega
    have hK : 2 ^ l + u < 512 := by
      have : (2 : ℕ) ^ l ≤ 2 ^ 8 := Nat.pow_le_pow_right (by norm_num) (by omega)
      omega
    have ck := gm_ok (2 ^ l + u) (by have := Nat.pos_of_neZero (2 ^ l); omega) hK
    obtain ⟨_, i2⟩ := ih (by omega) u hu
    unfold gmOk at ck
    simp only [Bool.and_eq_true, decide_eq_true_eq] at ck
    obtain ⟨⟨⟨⟨⟨⟨⟨⟨⟨⟨⟨wa, wb⟩, w1⟩, w2⟩, w3⟩, w4⟩, p1⟩, p2⟩, q1⟩, q2⟩, r1⟩, r2⟩ := ck
    have va := (wOk_val _ wa).2; have vb := (wOk_val _ wb).2; have vc := wOk_val _ w1; have vd := wOk_val _ w2; have ve := wOk_val _ w3; have vf := wOk_val _ w4
    have eg : gm (2 * (2 ^ l + u)) = (BitVec.ofNat 64 gmTab[4 * (2 ^ l + u)]!, BitVec.ofNat 64 gmTab[4 * (2 ^ l + u) + 1]!) := by unfold gm; rw [show 2 * (2 * (2 ^ l + u)) = 4 * (2 ^ l + u) by ring]
    have eh : gm (2 * (2 ^ l + u) + 1) = (BitVec.ofNat 64 gmTab[4 * (2 ^ l + u) + 2]!, BitVec.ofNat 64 gmTab[4 * (2 ^ l + u) + 3]!) := by
      unfold gm; rw [show 2 * (2 * (2 ^ l + u) + 1) = 4 * (2 ^ l + u) + 2 by ring]
    have ca : cv (gm (2 ^ l + u)) = ⟨(iv gmTab[2 * (2 ^ l + u)]! : ℝ) / 2 ^ 62, (iv gmTab[2 * (2 ^ l + u) + 1]! : ℝ) / 2 ^ 62⟩ := by unfold cv gm; rw [va, vb]
    have cg : cv (gm (2 * (2 ^ l + u))) = ⟨(iv gmTab[4 * (2 ^ l + u)]! : ℝ) / 2 ^ 62, (iv gmTab[4 * (2 ^ l + u) + 1]! : ℝ) / 2 ^ 62⟩ := by rw [eg]; unfold cv; rw [vc.2, vd.2]
    have ch : cv (gm (2 * (2 ^ l + u) + 1)) = Complex.I * cv (gm (2 * (2 ^ l + u))) := by
      rw [eh, cg]; unfold cv; rw [ve.2, vf.2, q1, q2]
      apply Complex.ext
      · simp; ring
      · simp
    have key : ‖cv (gm (2 * (2 ^ l + u))) - gmE (l + 1) (2 * u)‖ ≤ 4 * uu := by
      have hd : ‖cv (gm (2 * (2 ^ l + u))) ^ 2 - gmE (l + 1) (2 * u) ^ 2‖ ≤ 7 * uu := by
        rw [gmE_sq]
        have t := norm_sub_le_norm_sub_add_norm_sub (cv (gm (2 * (2 ^ l + u))) ^ 2) (cv (gm (2 ^ l + u))) (gmE l u)
        refine t.trans ?_
        have : ‖cv (gm (2 * (2 ^ l + u))) ^ 2 - cv (gm (2 ^ l + u))‖ ≤ 3 * uu := by
          rw [cg, ca]
          generalize iv gmTab[4 * (2 ^ l + u)]! = c at *
          generalize iv gmTab[4 * (2 ^ l + u) + 1]! = d at *
          generalize iv gmTab[2 * (2 ^ l + u)]! = a at *
          generalize iv gmTab[2 * (2 ^ l + u) + 1]! = b at *
          have f1 : |((c * c - d * d - a * 2 ^ 62 : ℤ) : ℝ)| ≤ 2 ^ 72 := by rw [← Int.cast_abs, Int.abs_eq_natAbs]; exact_mod_cast r1
          have f2 : |((2 * (c * d) - b * 2 ^ 62 : ℤ) : ℝ)| ≤ 2 ^ 72 := by rw [← Int.cast_abs, Int.abs_eq_natAbs]; exact_mod_cast r2
          have g1 : ((⟨(c : ℝ) / 2 ^ 62, (d : ℝ) / 2 ^ 62⟩ : ℂ) ^ 2 - (⟨(a : ℝ) / 2 ^ 62, (b : ℝ) / 2 ^ 62⟩ : ℂ)).re = ((c * c - d * d - a * 2 ^ 62 : ℤ) : ℝ) / 2 ^ 124 := by
            rw [pow_two, Complex.sub_re, Complex.mul_re]; push_cast; field_simp; ring
          have g2 : ((⟨(c : ℝ) / 2 ^ 62, (d : ℝ) / 2 ^ 62⟩ : ℂ) ^ 2 - (⟨(a : ℝ) / 2 ^ 62, (b : ℝ) / 2 ^ 62⟩ : ℂ)).im = ((2 * (c * d) - b * 2 ^ 62 : ℤ) : ℝ) / 2 ^ 124 := by
            rw [pow_two, Complex.sub_im, Complex.mul_im]; push_cast; field_simp; ring
          have b1 : |((c * c - d * d - a * 2 ^ 62 : ℤ) : ℝ) / 2 ^ 124| ≤ 2 * uu := by
            rw [abs_div, abs_of_pos (show (0 : ℝ) < 2 ^ 124 by norm_num), div_le_iff₀ (by norm_num)]; unfold uu; refine f1.trans ?_; norm_num
          have b2 : |((2 * (c * d) - b * 2 ^ 62 : ℤ) : ℝ) / 2 ^ 124| ≤ 2 * uu := by
            rw [abs_div, abs_of_pos (show (0 : ℝ) < 2 ^ 124 by norm_num), div_le_iff₀ (by norm_num)]; unfold uu; refine f2.trans ?_; norm_num
          rw [← g1] at b1
          rw [← g2] at b2
          generalize ((⟨(c : ℝ) / 2 ^ 62, (d : ℝ) / 2 ^ 62⟩ : ℂ) ^ 2 - (⟨(a : ℝ) / 2 ^ 62, (b : ℝ) / 2 ^ 62⟩ : ℂ)) = z at *
          have u0 := uu_pos
          refine abs_le_of_sq_le_sq' ?_ (by linarith) |>.2
          rw [← Complex.normSq_eq_norm_sq, Complex.normSq_apply]
          have s1 := mul_self_le_mul_self (abs_nonneg z.re) b1
          have s2 := mul_self_le_mul_self (abs_nonneg z.im) b2
          rw [abs_mul_abs_self] at s1 s2
          nlinarith
        linarith
      have u1 : 7 * uu ≤ 1 / 8 := by unfold uu; norm_num
      have := sqrt_stable _ _ ⟨?_, ?_⟩ (gmE_quadrant l u) (gmE_norm _ _) _ hd u1
      · linarith
      · rw [cg]; have : (0 : ℝ) < iv gmTab[4 * (2 ^ l + u)]! := by exact_mod_cast p1
        positivity
      · rw [cg]; have : (0 : ℝ) < iv gmTab[4 * (2 ^ l + u) + 1]! := by exact_mod_cast p2
        positivity
    have ei : 2 ^ (l + 1) + (2 * u + b) = 2 * (2 ^ l + u) + b := by rw [pow_succ]; ring
    rw [ei]
    interval_cases b
    · exact ⟨by rw [add_zero, eg]; exact ⟨vc.1, vd.1⟩, key⟩
    · refine ⟨by rw [eh]; exact ⟨ve.1, vf.1⟩, ?_⟩
      rw [ch, gmE_odd, ← mul_sub, norm_mul, Complex.norm_I, one_mul]; exact key

end Verif.CRef.Fft
