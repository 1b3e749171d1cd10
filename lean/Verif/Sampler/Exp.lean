import Verif.Sampler.ExpPoly

/-! # C69: the rejection probability -/

namespace Verif.Sampler

/-! ## Rounding errors of the integer loop -/

theorem shift63 (a : ℤ) : ((a >>> 63 : ℤ) : ℝ) ≤ (a : ℝ) / 2 ^ 63 ∧ (a : ℝ) / 2 ^ 63 < ((a >>> 63 : ℤ) : ℝ) + 1 := by
  rw [show a >>> 63 = a / 2 ^ 63 from Int.shiftRight_eq_div_pow a 63]
  have h1 := Int.ediv_mul_le a (b := 2 ^ 63) (by norm_num)
  have h2 := Int.lt_ediv_add_one_mul_self a (b := 2 ^ 63) (by norm_num)
  generalize a / 2 ^ 63 = d at *
  have h1' : (d : ℝ) * 2 ^ 63 ≤ a := by exact_mod_cast h1
  have h2' : (a : ℝ) < ((d : ℝ) + 1) * 2 ^ 63 := by exact_mod_cast h2
  rw [le_div_iff₀ (by norm_num), div_lt_iff₀ (by norm_num)]
  exact ⟨h1', h2'⟩

theorem horner_step (z y c : ℤ) (x Y : ℝ) (hz : |(z : ℝ)| ≤ 0.7 * 2 ^ 63) (hx : |(z : ℝ) - 2 ^ 63 * x| ≤ 1) (hx7 : |x| ≤ 0.7)
    (hc : |(c : ℝ)| ≤ 2 ^ 63) (hy : |(y : ℝ) - Y| ≤ 17) (hY : |Y| ≤ 4 * 2 ^ 63) :
    |((c - ((z * y) >>> 63) : ℤ) : ℝ) - (c - x * Y)| ≤ 17 ∧ |c - x * Y| ≤ 4 * 2 ^ 63 := by
  obtain ⟨h1, h2⟩ := shift63 (z * y)
  push_cast at h1 h2 ⊢
  generalize (((z * y) >>> 63 : ℤ) : ℝ) = d at *
  have e : (z : ℝ) * y / 2 ^ 63 = x * Y + (z / 2 ^ 63 * (y - Y) + (z / 2 ^ 63 - x) * Y) := by ring
  have a1 : |(z : ℝ) / 2 ^ 63 * (y - Y)| ≤ 0.7 * 17 := by
    rw [abs_mul, abs_div, abs_of_pos (show (0 : ℝ) < 2 ^ 63 by positivity)]
    apply mul_le_mul _ hy (abs_nonneg _) (by norm_num)
    rw [div_le_iff₀ (by positivity)]; exact hz
  have a2 : |((z : ℝ) / 2 ^ 63 - x) * Y| ≤ 1 / 2 ^ 63 * (4 * 2 ^ 63) := by
    rw [abs_mul]
    apply mul_le_mul _ hY (abs_nonneg _) (by positivity)
    have : (z : ℝ) / 2 ^ 63 - x = (z - 2 ^ 63 * x) / 2 ^ 63 := by ring
    rw [this, abs_div, abs_of_pos (show (0 : ℝ) < 2 ^ 63 by positivity)]
    exact div_le_div_of_nonneg_right hx (by positivity)
  rw [e] at h1 h2
  have a3 : |x * Y| ≤ 0.7 * (4 * 2 ^ 63) := by
    rw [abs_mul]; exact mul_le_mul hx7 hY (abs_nonneg _) (by norm_num)
  rw [abs_le] at a1 a2 a3 hc ⊢
  rw [abs_le]
  norm_num at *
  refine ⟨⟨?_, ?_⟩, ?_, ?_⟩ <;> linarith [a1.1, a1.2, a2.1, a2.2, a3.1, a3.2, hc.1, hc.2]

theorem horner_fold (z : ℤ) (x : ℝ) (hz : |(z : ℝ)| ≤ 0.7 * 2 ^ 63) (hx : |(z : ℝ) - 2 ^ 63 * x| ≤ 1) (hx7 : |x| ≤ 0.7) (l : List ℤ) (hl : ∀ c ∈ l, |(c : ℝ)| ≤ 2 ^ 63)
    (y : ℤ) (Y : ℝ) (hy : |(y : ℝ) - Y| ≤ 17) (hY : |Y| ≤ 4 * 2 ^ 63) :
    |((l.foldl (fun y elt => elt - ((z * y) >>> 63)) y : ℤ) : ℝ) - List.foldl (fun (y : ℝ) (elt : ℤ) => (elt : ℝ) - x * y) Y l| ≤ 17 := by
  induction l generalizing y Y with
  | nil => exact hy
  | cons c l ih =>
    obtain ⟨h1, h2⟩ := horner_step z y c x Y hz hx hx7 (hl c (by simp)) hy hY
    exact ih (fun d hd => hl d (List.mem_cons_of_mem _ hd)) _ _ h1 h2

theorem expC_abs : ∀ c ∈ expC, 0 ≤ c ∧ c ≤ 2 ^ 63 := by decide

theorem horner_close (z : ℤ) (x : ℝ) (hz : |(z : ℝ)| ≤ 0.7 * 2 ^ 63) (hx : |(z : ℝ) - 2 ^ 63 * x| ≤ 1) (hx7 : |x| ≤ 0.7) : |(horner z : ℝ) - hornerR x| ≤ 17 := by
  refine horner_fold z x hz hx hx7 expC.tail ?_ _ _ (by simp) (by norm_num [expC])
  intro c hc
  obtain ⟨h0, h1⟩ := expC_abs c (List.mem_of_mem_tail hc)
  have h0' : (0 : ℝ) ≤ c := by exact_mod_cast h0
  have h1' : (c : ℝ) ≤ 2 ^ 63 := by exact_mod_cast h1
  rw [abs_of_nonneg h0']; exact h1'

theorem shift63_int (a : ℤ) : (a >>> 63) = a / 2 ^ 63 := Int.shiftRight_eq_div_pow a 63

theorem horner_sorted (z : ℤ) (h0 : 0 ≤ z) (h1 : z ≤ 2 ^ 63) (l : List ℤ) (c y : ℤ) (hs : List.IsChain (· ≤ ·) (c :: l)) (hy : 0 ≤ y) (hyc : y ≤ c) :
    0 ≤ l.foldl (fun y elt => elt - ((z * y) >>> 63)) y ∧ l.foldl (fun y elt => elt - ((z * y) >>> 63)) y ≤ (c :: l).getLastD 0 := by
  induction l generalizing c y with
  | nil => exact ⟨hy, hyc⟩
  | cons d l ih =>
    rw [List.isChain_cons_cons] at hs
    have hp : 0 ≤ z * y / 2 ^ 63 := Int.ediv_nonneg (mul_nonneg h0 hy) (by norm_num)
    have hq : z * y / 2 ^ 63 ≤ y := by
      have : z * y ≤ 2 ^ 63 * y := mul_le_mul_of_nonneg_right h1 hy
      exact Int.ediv_le_of_le_mul (by norm_num) (by linarith)
    have := ih d (d - ((z * y) >>> 63)) hs.2 (by rw [shift63_int]; linarith [hs.1]) (by rw [shift63_int]; linarith)
    simpa using this

theorem horner_le (z : ℤ) (h0 : 0 ≤ z) (h1 : z ≤ 2 ^ 63) : 0 ≤ horner z ∧ horner z ≤ 2 ^ 63 := by
  have := horner_sorted z h0 h1 expC.tail (expC.headD 0) (expC.headD 0) (by decide) (by decide) le_rfl
  exact this

/-! ## approxexp -/

theorem pyInt_close (x : ℚ) : |((pyInt x : ℤ) : ℝ) - (x : ℝ)| ≤ 1 := by
  rcases le_or_gt 0 x with h | h
  · rw [pyInt_nonneg h]
    have h1 := Int.floor_le x
    have h2 := Int.lt_floor_add_one x
    have h1' : ((⌊x⌋ : ℤ) : ℝ) ≤ (x : ℝ) := by exact_mod_cast h1
    have h2' : (x : ℝ) < ((⌊x⌋ : ℤ) : ℝ) + 1 := by exact_mod_cast h2
    rw [abs_le]; constructor <;> linarith
  · have e : pyInt x = -pyInt (-x) := by
      unfold pyInt
      rw [Rat.num_neg_eq_neg_num, Rat.den_neg_eq_den, Int.neg_tdiv, neg_neg]
    rw [e, pyInt_nonneg (by linarith)]
    have h1 := Int.floor_le (-x)
    have h2 := Int.lt_floor_add_one (-x)
    have h1' : ((⌊-x⌋ : ℤ) : ℝ) ≤ -(x : ℝ) := by exact_mod_cast h1
    have h2' : -(x : ℝ) < ((⌊-x⌋ : ℤ) : ℝ) + 1 := by exact_mod_cast h2
    push_cast
    rw [abs_le]; constructor <;> linarith

theorem exp_range (r : ℝ) (h0 : -(1 / 512) ≤ r) (h1 : r ≤ 0.695) : 0.25 ≤ Real.exp (-r) ∧ Real.exp (-r) ≤ 1.01 := by
  constructor
  · have := Real.add_one_le_exp (-r)
    norm_num at h1 ⊢; linarith
  · have h2 := Real.add_one_le_exp r
    have h3 : Real.exp (-r) * Real.exp r = 1 := by rw [← Real.exp_add]; simp
    have h4 : 0 < Real.exp (-r) := Real.exp_pos _
    norm_num
    nlinarith

/-- `approxexp(r, ccs)` is `2^64 · ccs · exp(-r)` up to `2^14`. -/
theorem approxexp_close (r ccs : ℚ) (h0 : -(1 / 512) ≤ r) (h1 : r ≤ 0.695) (hc0 : 0 ≤ ccs) (hc1 : ccs ≤ 1) :
    |((approxexp r ccs : ℤ) : ℝ) - 2 ^ 64 * (ccs : ℝ) * Real.exp (-(r : ℝ))| ≤ 2 ^ 14 := by
  have h0' : -(1 / 512) ≤ (r : ℝ) := by
    have : ((-(1 / 512) : ℚ) : ℝ) ≤ (r : ℝ) := by exact_mod_cast h0
    push_cast at this; exact this
  have h1' : (r : ℝ) ≤ 0.695 := by
    have : (r : ℝ) ≤ ((0.695 : ℚ) : ℝ) := by exact_mod_cast h1
    push_cast at this; norm_num at this ⊢; exact this
  have hc0' : (0 : ℝ) ≤ ccs := by exact_mod_cast hc0
  have hc1' : (ccs : ℝ) ≤ 1 := by exact_mod_cast hc1
  have hz := pyInt_close (r * (1 <<< 63 : ℕ))
  have hp := poly_exp r h0' h1'
  have hk := pyInt_close (ccs * (1 <<< 63 : ℕ))
  obtain ⟨e1, e2⟩ := exp_range r h0' h1'
  have e63 : ((1 <<< 63 : ℕ) : ℝ) = 2 ^ 63 := by rw [Nat.one_shiftLeft]; push_cast; norm_num
  have hzz : |((pyInt (r * (1 <<< 63 : ℕ)) : ℤ) : ℝ) - 2 ^ 63 * (r : ℝ)| ≤ 1 := by
    rw [Rat.cast_mul, Rat.cast_natCast, e63] at hz; rw [mul_comm (2 ^ 63 : ℝ)]; exact hz
  have hkk : |((pyInt (ccs * (1 <<< 63 : ℕ)) : ℤ) : ℝ) - 2 ^ 63 * (ccs : ℝ)| ≤ 1 := by
    rw [Rat.cast_mul, Rat.cast_natCast, e63] at hk; rw [mul_comm (2 ^ 63 : ℝ)]; exact hk
  unfold approxexp
  simp only
  generalize pyInt (r * (1 <<< 63 : ℕ)) = z at *
  generalize pyInt (ccs * (1 <<< 63 : ℕ)) = k at *
  have hh := horner_close z r (by rw [abs_le] at *; norm_num at *; constructor <;> linarith [hzz.1, hzz.2]) hzz (by rw [abs_le]; norm_num at *; constructor <;> linarith)
  obtain ⟨s1, s2⟩ := shift63 ((k <<< 1) * horner z)
  have hk1 : (k <<< 1 : ℤ) = 2 * k := by rw [Int.shiftLeft_eq]; ring
  rw [hk1] at s1 s2 ⊢
  generalize hornerR (r : ℝ) = P at *
  generalize horner z = y at *
  push_cast at s1 s2
  generalize (((2 * k * y) >>> 63 : ℤ) : ℝ) = d at *
  generalize Real.exp (-(r : ℝ)) = E at *
  -- y / 2^63 = E + δ
  obtain ⟨δ, hδ⟩ : ∃ δ, (y : ℝ) / 2 ^ 63 = E + δ := ⟨(y : ℝ) / 2 ^ 63 - E, by ring⟩
  have hδ' : |δ| ≤ 1 / 2 ^ 51 + 17 / 2 ^ 63 := by
    have : δ = ((y : ℝ) - P) / 2 ^ 63 + (P / 2 ^ 63 - E) := by linarith [hδ, sub_div (y : ℝ) P (2 ^ 63)]
    rw [this]
    refine (abs_add_le _ _).trans ?_
    have : |((y : ℝ) - P) / 2 ^ 63| ≤ 17 / 2 ^ 63 := by
      rw [abs_div, abs_of_pos (show (0 : ℝ) < 2 ^ 63 by positivity)]
      exact div_le_div_of_nonneg_right hh (by positivity)
    linarith
  have e : 2 * (k : ℝ) * y / 2 ^ 63 = 2 * k * (E + δ) := by rw [← hδ]; ring
  rw [e] at s1 s2
  have m1 : 2 * (k : ℝ) * (E + δ) - 2 ^ 64 * ccs * E = 2 * (k - 2 ^ 63 * ccs) * (E + δ) + 2 ^ 64 * ccs * δ := by ring
  have m2 : |2 * (k - 2 ^ 63 * (ccs : ℝ)) * (E + δ)| ≤ 2 * 2 := by
    rw [abs_mul, abs_mul]
    have : |E + δ| ≤ 2 := by
      rw [abs_le] at *; norm_num at *; constructor <;> linarith [hδ'.1, hδ'.2]
    rw [show |(2 : ℝ)| = 2 by norm_num]
    have := mul_le_mul hkk this (abs_nonneg _) (by norm_num)
    nlinarith
  have m3 : |2 ^ 64 * (ccs : ℝ) * δ| ≤ 2 ^ 64 * (1 / 2 ^ 51 + 17 / 2 ^ 63) := by
    rw [abs_mul, abs_mul, abs_of_nonneg hc0', abs_of_pos (show (0 : ℝ) < 2 ^ 64 by positivity)]
    apply mul_le_mul _ hδ' (abs_nonneg _) (by positivity)
    have : (0 : ℝ) < 2 ^ 64 := by positivity
    nlinarith
  rw [abs_le] at m2 m3 ⊢
  norm_num at *
  constructor <;> linarith [m2.1, m2.2, m3.1, m3.2]

/-! ## berexp -/

theorem half_pow_close (h : ℝ) (h0 : 0 ≤ h) (h1 : h ≤ 1 / 2) (e : ℝ) (he : 1 / 2 - h ≤ e) (n : ℕ) : 0 ≤ h ^ n ∧ h ^ n ≤ (1 / 2) ^ n ∧ (1 / 2) ^ n - h ^ n ≤ n * (1 / 2) ^ (n - 1) * e := by
  refine ⟨by positivity, pow_le_pow_left₀ h0 h1 n, ?_⟩
  induction n with
  | zero => simp
  | succ n ih =>
    have e1 : (1 / 2 : ℝ) ^ (n + 1) - h ^ (n + 1) = (1 / 2) ^ n * (1 / 2 - h) + h * ((1 / 2) ^ n - h ^ n) := by ring
    rw [e1, Nat.add_sub_cancel]
    have a1 : (1 / 2 : ℝ) ^ n * (1 / 2 - h) ≤ (1 / 2) ^ n * e := mul_le_mul_of_nonneg_left he (by positivity)
    have he0 : 0 ≤ e := by linarith
    have a2 : h * ((1 / 2) ^ n - h ^ n) ≤ n * (1 / 2) ^ n * e := by
      rcases n with _ | n
      · simp
      · have p0 : h ^ (n + 1) ≤ (1 / 2) ^ (n + 1) := pow_le_pow_left₀ h0 h1 _
        calc h * ((1 / 2) ^ (n + 1) - h ^ (n + 1)) ≤ 1 / 2 * ((1 / 2) ^ (n + 1) - h ^ (n + 1)) := mul_le_mul_of_nonneg_right h1 (by linarith)
          _ ≤ 1 / 2 * (((n + 1 : ℕ) : ℝ) * (1 / 2) ^ (n + 1 - 1) * e) := by linarith
          _ = _ := by rw [Nat.add_sub_cancel]; ring
    push_cast
    linarith

theorem n_half (n : ℕ) : (n : ℝ) * (1 / 2) ^ (n - 1) ≤ 1 := by
  have : (n : ℕ) ≤ 2 ^ (n - 1) := by
    rcases n with _ | n
    · simp
    · rw [Nat.add_sub_cancel]; exact Nat.lt_two_pow_self
  have h : (n : ℝ) ≤ 2 ^ (n - 1) := by exact_mod_cast this
  calc (n : ℝ) * (1 / 2) ^ (n - 1) ≤ 2 ^ (n - 1) * (1 / 2) ^ (n - 1) := mul_le_mul_of_nonneg_right h (by positivity)
    _ = 1 := by rw [← mul_pow]; norm_num

theorem exp_ln2 : Real.exp (-(ln2 : ℝ)) ≤ 1 / 2 ∧ 1 / 2 - Real.exp (-(ln2 : ℝ)) ≤ 3 / 10 ^ 14 := by
  have := exp_encl (-ln2) 30 (by norm_num) (by decide +kernel) (1 / 2 - 3 / 10 ^ 14) (1 / 2) (by decide +kernel) (by decide +kernel)
  push_cast at this
  constructor <;> linarith [this.1, this.2]

theorem reduce (x : ℚ) (hx0 : 0 ≤ x) (hx1 : x ≤ 1000) :
    0 ≤ pyInt (x * iln2) ∧ -(1 / 512) ≤ x - pyInt (x * iln2) * ln2 ∧ x - pyInt (x * iln2) * ln2 ≤ 0.695 ∧ (pyInt (x * iln2) = 0 → 0 ≤ x - pyInt (x * iln2) * ln2) := by
  have hi : (0 : ℚ) < iln2 := by norm_num [iln2]
  rw [pyInt_nonneg (by positivity)]
  have f1 := Int.floor_le (x * iln2)
  have f2 := Int.lt_floor_add_one (x * iln2)
  refine ⟨Int.floor_nonneg.2 (by positivity), ?_, ?_, ?_⟩
  · generalize ((⌊x * iln2⌋ : ℤ) : ℚ) = f at *
    unfold iln2 at f1
    unfold ln2
    norm_num at *; linarith
  · generalize ((⌊x * iln2⌋ : ℤ) : ℚ) = f at *
    unfold iln2 at f2
    unfold ln2
    norm_num at *; linarith
  · intro h; rw [h]; simpa using hx0

theorem shift_real (a : ℤ) (n : ℕ) : ((a >>> n : ℤ) : ℝ) ≤ (a : ℝ) * (1 / 2) ^ n ∧ (a : ℝ) * (1 / 2) ^ n < ((a >>> n : ℤ) : ℝ) + 1 := by
  rw [Int.shiftRight_eq_div_pow]
  push_cast
  have hp : (0 : ℤ) < 2 ^ n := by positivity
  have h1 := Int.ediv_mul_le a hp.ne'
  have h2 := Int.lt_ediv_add_one_mul_self a hp
  generalize a / 2 ^ n = d at *
  have h1' : (d : ℝ) * 2 ^ n ≤ a := by exact_mod_cast h1
  have h2' : (a : ℝ) < ((d : ℝ) + 1) * 2 ^ n := by exact_mod_cast h2
  rw [div_pow, one_pow, mul_one_div, le_div_iff₀ (by positivity), div_lt_iff₀ (by positivity)]
  exact ⟨h1', h2'⟩

/-- Bounds on the value of `approxexp` needed for the range of the threshold. -/
theorem approxexp_range (r ccs : ℚ) (h0 : -(1 / 512) ≤ r) (h1 : r ≤ 0.695) (hc0 : 1 / 2 ≤ ccs) (hc1 : ccs ≤ 1) :
    1 ≤ approxexp r ccs ∧ approxexp r ccs < 2 ^ 65 ∧ (0 ≤ r → approxexp r ccs ≤ 2 ^ 64) := by
  have h := approxexp_close r ccs h0 h1 (by linarith) hc1
  have h0' : -(1 / 512) ≤ (r : ℝ) := by
    have : ((-(1 / 512) : ℚ) : ℝ) ≤ (r : ℝ) := by exact_mod_cast h0
    push_cast at this; exact this
  have h1' : (r : ℝ) ≤ 0.695 := by
    have : (r : ℝ) ≤ ((0.695 : ℚ) : ℝ) := by exact_mod_cast h1
    push_cast at this; norm_num at this ⊢; exact this
  obtain ⟨e1, e2⟩ := exp_range r h0' h1'
  have hc0' : (1 / 2 : ℝ) ≤ ccs := by
    have : ((1 / 2 : ℚ) : ℝ) ≤ (ccs : ℝ) := by exact_mod_cast hc0
    push_cast at this; exact this
  have hc1' : (ccs : ℝ) ≤ 1 := by exact_mod_cast hc1
  refine ⟨?_, ?_, ?_⟩
  · have : (1 : ℝ) ≤ approxexp r ccs := by
      generalize Real.exp (-(r : ℝ)) = E at *
      have : (1 / 2 : ℝ) * 0.25 ≤ ccs * E := mul_le_mul hc0' e1 (by norm_num) (by linarith)
      rw [abs_le] at h
      norm_num at *
      nlinarith [h.1]
    exact_mod_cast this
  · have : (approxexp r ccs : ℝ) < 2 ^ 65 := by
      generalize Real.exp (-(r : ℝ)) = E at *
      have : ccs * E ≤ 1 * 1.01 := mul_le_mul hc1' e2 (by norm_num at *; linarith) (by norm_num)
      rw [abs_le] at h
      norm_num at *
      nlinarith [h.2]
    exact_mod_cast this
  · intro hr
    unfold approxexp
    simp only
    have hp : (0 : ℚ) < ((1 <<< 63 : ℕ) : ℚ) := by norm_num
    have hz0 : 0 ≤ pyInt (r * (1 <<< 63 : ℕ)) := by
      rw [pyInt_nonneg (by positivity)]; exact Int.floor_nonneg.2 (by positivity)
    have hz1 : pyInt (r * (1 <<< 63 : ℕ)) ≤ 2 ^ 63 := by
      rw [pyInt_nonneg (by positivity)]
      apply Int.floor_le_iff.2
      rw [Nat.one_shiftLeft]; push_cast; norm_num at *; linarith
    have hk0 : 0 ≤ pyInt (ccs * (1 <<< 63 : ℕ)) := by
      have : 0 ≤ ccs := by linarith
      rw [pyInt_nonneg (by positivity)]; exact Int.floor_nonneg.2 (by positivity)
    have hk1 : pyInt (ccs * (1 <<< 63 : ℕ)) ≤ 2 ^ 63 := by
      have : 0 ≤ ccs := by linarith
      rw [pyInt_nonneg (by positivity)]
      apply Int.floor_le_iff.2
      rw [Nat.one_shiftLeft]; push_cast; norm_num at *; linarith
    obtain ⟨y0, y1⟩ := horner_le _ hz0 hz1
    rw [Int.shiftLeft_eq, shift63_int]
    generalize pyInt (ccs * (1 <<< 63 : ℕ)) = k at *
    generalize horner (pyInt (r * (1 <<< 63 : ℕ))) = y at *
    apply Int.ediv_le_of_le_mul (by norm_num)
    have : k * y ≤ 2 ^ 63 * 2 ^ 63 := mul_le_mul hk1 y1 y0 (by norm_num)
    linarith

/-- **C69**: for `0 ≤ x ≤ 1000` and `1/2 ≤ ccs ≤ 1` the threshold of `berexp` is a 64-bit number `z` with `|z / 2^64 - ccs·exp(-x)| ≤ 2^-44`. -/
theorem C69_threshold (x ccs : ℚ) (hx0 : 0 ≤ x) (hx1 : x ≤ 1000) (hc0 : 1 / 2 ≤ ccs) (hc1 : ccs ≤ 1) :
    ∃ z : ℕ, berThreshold x ccs = .ok (z : ℤ) ∧ z < 2 ^ 64 ∧ |(z : ℝ) / 2 ^ 64 - (ccs : ℝ) * Real.exp (-(x : ℝ))| ≤ 1 / 2 ^ 44 := by
  obtain ⟨s0, r0, r1, r2⟩ := reduce x hx0 hx1
  unfold berThreshold
  simp only
  rw [if_neg (by omega)]
  obtain ⟨s, hs⟩ := Int.eq_ofNat_of_zero_le s0
  rw [hs] at r0 r1 r2 ⊢
  have hmin : (min (s : ℤ) 63).toNat = min s 63 := by omega
  rw [hmin]
  have hr : ((x - ((s : ℤ) : ℚ) * ln2 : ℚ) : ℝ) = (x : ℝ) - s * (ln2 : ℝ) := by push_cast; rfl
  generalize hrr : x - ((s : ℤ) : ℚ) * ln2 = r at *
  have hcl := approxexp_close r ccs r0 r1 (by linarith) hc1
  obtain ⟨b1, b2, b3⟩ := approxexp_range r ccs r0 r1 hc0 hc1
  have hE : Real.exp (-(x : ℝ)) = Real.exp (-(r : ℝ)) * Real.exp (-(ln2 : ℝ)) ^ s := by
    rw [← Real.exp_nat_mul, ← Real.exp_add]
    congr 1
    rw [hr]; ring
  have h0' : -(1 / 512) ≤ (r : ℝ) := by
    have : ((-(1 / 512) : ℚ) : ℝ) ≤ (r : ℝ) := by exact_mod_cast r0
    push_cast at this; exact this
  have h1' : (r : ℝ) ≤ 0.695 := by
    have : (r : ℝ) ≤ ((0.695 : ℚ) : ℝ) := by exact_mod_cast r1
    push_cast at this; norm_num at this ⊢; exact this
  obtain ⟨e1, e2⟩ := exp_range r h0' h1'
  obtain ⟨l1, l2⟩ := exp_ln2
  have l0 : 0 ≤ Real.exp (-(ln2 : ℝ)) := (Real.exp_pos _).le
  obtain ⟨p0, p1, p2⟩ := half_pow_close _ l0 l1 _ l2 s
  have hn := n_half s
  have hc0' : (1 / 2 : ℝ) ≤ ccs := by
    have : ((1 / 2 : ℚ) : ℝ) ≤ (ccs : ℝ) := by exact_mod_cast hc0
    push_cast at this; exact this
  have hc1' : (ccs : ℝ) ≤ 1 := by exact_mod_cast hc1
  have p3 : (1 / 2 : ℝ) ^ s - Real.exp (-(ln2 : ℝ)) ^ s ≤ 3 / 10 ^ 14 := by
    refine p2.trans ?_
    have := mul_le_mul_of_nonneg_right hn (show (0 : ℝ) ≤ 3 / 10 ^ 14 by norm_num)
    linarith
  obtain ⟨q1, q2⟩ := shift_real (approxexp r ccs - 1) (min s 63)
  have hz0 : 0 ≤ (approxexp r ccs - 1) >>> (min s 63) := by
    rw [Int.shiftRight_eq_div_pow]; exact Int.ediv_nonneg (by omega) (by positivity)
  have hz1 : (approxexp r ccs - 1) >>> (min s 63) < 2 ^ 64 := by
    rcases Nat.eq_zero_or_pos s with rfl | hpos
    · have := b3 (by simpa using r2)
      simp only [Nat.zero_min]
      rw [Int.shiftRight_zero]; omega
    · rw [Int.shiftRight_eq_div_pow]
      apply Int.ediv_lt_of_lt_mul (by positivity)
      have : (2 : ℤ) ^ 1 ≤ ((2 ^ min s 63 : ℕ) : ℤ) := by
        exact_mod_cast Nat.pow_le_pow_right (show 0 < 2 by norm_num) (show 1 ≤ min s 63 by omega)
      generalize ((2 ^ min s 63 : ℕ) : ℤ) = p at *
      linarith
  obtain ⟨z, hz⟩ := Int.eq_ofNat_of_zero_le hz0
  refine ⟨z, by rw [hz], by omega, ?_⟩
  rw [hz] at q1 q2
  simp only [Int.cast_natCast] at q1 q2
  push_cast at q1 q2
  rw [hE]
  generalize Real.exp (-(r : ℝ)) = E at *
  generalize Real.exp (-(ln2 : ℝ)) ^ s = L at *
  generalize ((approxexp r ccs : ℤ) : ℝ) = a at *
  have hCE0 : (0 : ℝ) ≤ ccs * E := mul_nonneg (by linarith) (by norm_num at *; linarith)
  have hCE1 : ccs * E ≤ 1.01 := by
    have : ccs * E ≤ 1 * 1.01 := mul_le_mul hc1' e2 (by norm_num at *; linarith) (by norm_num)
    linarith
  rw [show 2 ^ 64 * (ccs : ℝ) * E = 2 ^ 64 * (ccs * E) by ring] at hcl
  rw [show (ccs : ℝ) * (E * L) = (ccs * E) * L by ring]
  generalize (ccs : ℝ) * E = c at *
  have hgoal : |(z : ℝ) - 2 ^ 64 * (c * L)| ≤ 2 ^ 20 → |(z : ℝ) / 2 ^ 64 - c * L| ≤ 1 / 2 ^ 44 := by
    intro h
    rw [show (z : ℝ) / 2 ^ 64 - c * L = ((z : ℝ) - 2 ^ 64 * (c * L)) / 2 ^ 64 by ring, abs_div, abs_of_pos (show (0 : ℝ) < 2 ^ 64 by positivity), div_le_iff₀ (by positivity)]
    refine h.trans ?_
    norm_num
  apply hgoal
  rw [abs_le] at hcl
  obtain ⟨c1, c2⟩ := hcl
  rcases Nat.lt_or_ge s 64 with hlt | hge
  · rw [show min s 63 = s by omega] at q1 q2
    have hH0 : (0 : ℝ) ≤ (1 / 2) ^ s := by positivity
    have hH1 : (1 / 2 : ℝ) ^ s ≤ 1 := pow_le_one₀ (by norm_num) (by norm_num)
    generalize (1 / 2 : ℝ) ^ s = H at *
    have t1 : c * (H - L) ≤ 1.01 * (3 / 10 ^ 14) := mul_le_mul hCE1 p3 (by linarith) (by norm_num)
    have t2 : 0 ≤ c * (H - L) := mul_nonneg hCE0 (by linarith)
    have t3 : (a - 1) * H - 2 ^ 64 * (c * H) ≤ 2 ^ 14 := by
      have : (a - 1 - 2 ^ 64 * c) * H ≤ 2 ^ 14 * 1 := by
        rcases le_total 0 (a - 1 - 2 ^ 64 * c) with h | h
        · exact mul_le_mul (by linarith) hH1 hH0 (by norm_num)
        · have := mul_nonpos_of_nonpos_of_nonneg h hH0
          norm_num at *; linarith
      linarith
    have t4 : -(2 ^ 14 + 1) ≤ (a - 1) * H - 2 ^ 64 * (c * H) := by
      have : (2 ^ 64 * c - (a - 1)) * H ≤ (2 ^ 14 + 1) * 1 := by
        rcases le_total 0 (2 ^ 64 * c - (a - 1)) with h | h
        · exact mul_le_mul (by linarith) hH1 hH0 (by norm_num)
        · have := mul_nonpos_of_nonpos_of_nonneg h hH0
          norm_num at *; linarith
      linarith
    have t5 : 2 ^ 64 * (c * L) = 2 ^ 64 * (c * H) - 2 ^ 64 * (c * (H - L)) := by ring
    rw [abs_le, t5]
    norm_num at *
    constructor <;> linarith
  · rw [show min s 63 = 63 by omega] at q1 q2
    have hL : L ≤ (1 / 2) ^ 64 := p1.trans (pow_le_pow_of_le_one (by norm_num) (by norm_num) hge)
    have t1 : c * L ≤ 1.01 * (1 / 2) ^ 64 := mul_le_mul hCE1 hL p0 (by norm_num)
    have t2 : 0 ≤ c * L := mul_nonneg hCE0 p0
    have t3 : (0 : ℝ) ≤ z := Nat.cast_nonneg _
    rw [abs_le]
    norm_num at *
    constructor <;> linarith

/-- **C69**: `berexp(x, ccs)` answers true exactly when the next eight bytes of the source, as a number `U < 2^64`, are below some `z` with `|z / 2^64 - ccs·exp(-x)| ≤ 2^-44`. -/
theorem C69_berexp {S : Type} (R : Rng S) (hR : Honest R) (x ccs : ℚ) (hx0 : 0 ≤ x) (hx1 : x ≤ 1000) (hc0 : 1 / 2 ≤ ccs) (hc1 : ccs ≤ 1) :
    ∃ z : ℕ, |(z : ℝ) / 2 ^ 64 - (ccs : ℝ) * Real.exp (-(x : ℝ))| ≤ 1 / 2 ^ 44 ∧ ∀ s : S, ∃ s', berexp R x ccs s = .ok (decide (be (draws R 8 s) < z), s') := by
  obtain ⟨z, h1, h2, h3⟩ := C69_threshold x ccs hx0 hx1 hc0 hc1
  exact ⟨z, h3, fun s => C46_berexp_law R hR x ccs z h1 h2 s⟩

/-- **C69**: in `samplerz` the exponents and scaling factors handed to `berexp` are in the range of the previous theorem, for `1 ≤ sigmin ≤ sigma ≤ MAX_SIGMA`. -/
theorem C69_in_range (z0 b : ℕ) (hz : z0 ≤ 18) (hb : b < 2) (r sigma sigmin : ℚ) (h0 : 0 ≤ r) (h1 : r < 1) (hs : 1 ≤ sigmin) (hss : sigmin ≤ sigma) (hm : sigma ≤ maxSigma) :
    0 ≤ exponent (b + (2 * b - 1) * z0) z0 r (1 / (2 * sigma * sigma)) ∧ exponent (b + (2 * b - 1) * z0) z0 r (1 / (2 * sigma * sigma)) ≤ 1000 ∧
    1 / 2 ≤ sigmin / sigma ∧ sigmin / sigma ≤ 1 := by
  obtain ⟨a1, a2⟩ := C46_exponent z0 b hz hb r sigma h0 h1 (hs.trans hss) hm
  have hp : 0 < sigma := by linarith
  refine ⟨a1, by linarith, ?_, ?_⟩
  · rw [le_div_iff₀ hp]
    unfold maxSigma at hm
    norm_num at hm ⊢; linarith
  · rw [div_le_one hp]; exact hss

/-- The bound is attained in substance: at `x = LN2` the threshold is that of `exp(-x)` with `x` reduced to 0, i.e. exactly one half. -/
example : berThreshold ln2 1 = .ok (2 ^ 63 - 1) := by decide +kernel
example : berThreshold 0 1 = .ok (2 ^ 64 - 1) := by decide +kernel
/-- `LN2 · ILN2 > 1`: the reduced exponent can be negative, contrary to the precondition of `approxexp` ("Both inputs x and ccs MUST be positive"). -/
example : ln2 - 1 / 10 ^ 13 - pyInt ((ln2 - 1 / 10 ^ 13) * iln2) * ln2 < 0 := by decide +kernel

end Verif.Sampler
