import Verif.Float.Spec

/-! # Rounding errors of complex operations -/

namespace Verif.PyFloat

/-- `2^-53`. -/
noncomputable def u : ℝ := 1 / 2 ^ 53
/-- `2^-200`. -/
noncomputable def h : ℝ := 1 / 2 ^ 200

theorem u_val : u = 1 / 9007199254740992 := by unfold u; norm_num

variable {fl : ℝ → ℝ} (hf : Rounds fl)
include hf

theorem Rounds.le (x : ℝ) (hx : |x| ≤ 2 ^ 200) : |fl x - x| ≤ u * |x| + h := by
  have := hf.close x hx
  unfold u h
  rw [one_div_mul_eq_div]; exact this

omit hf in
theorem pair_close (w z : ℂ) (e : ℝ) (h1 : |w.re - z.re| ≤ e) (h2 : |w.im - z.im| ≤ e) : ‖w - z‖ ≤ 2 * e := by
  have := Complex.norm_le_abs_re_add_abs_im (w - z)
  rw [Complex.sub_re, Complex.sub_im] at this
  linarith

theorem cadd_close (a b : ℂ) (hab : ‖a + b‖ ≤ 2 ^ 200) : ‖cadd fl a b - (a + b)‖ ≤ 2 * (u * ‖a + b‖ + h) := by
  have r := Complex.abs_re_le_norm (a + b)
  have i := Complex.abs_im_le_norm (a + b)
  have u0 : 0 ≤ u := by unfold u; positivity
  refine pair_close _ _ _ ?_ ?_
  · exact (hf.le _ (r.trans hab)).trans (by gcongr)
  · exact (hf.le _ (i.trans hab)).trans (by gcongr)

theorem csub_close (a b : ℂ) (hab : ‖a - b‖ ≤ 2 ^ 200) : ‖csub fl a b - (a - b)‖ ≤ 2 * (u * ‖a - b‖ + h) := by
  have r := Complex.abs_re_le_norm (a - b)
  have i := Complex.abs_im_le_norm (a - b)
  have u0 : 0 ≤ u := by unfold u; positivity
  refine pair_close _ _ _ ?_ ?_
  · exact (hf.le _ (r.trans hab)).trans (by gcongr)
  · exact (hf.le _ (i.trans hab)).trans (by gcongr)

/-- Two products and their sum or difference. -/
theorem two (p q m : ℝ) (s : ℝ) (hs : s = 1 ∨ s = -1) (hm : |p| + |q| ≤ m) (m0 : m ≤ 2 ^ 199) : |fl (fl p + s * fl q) - (p + s * q)| ≤ 3 * (u * m) + 4 * h := by
  have u0 : 0 ≤ u := by unfold u; positivity
  have u1 : u ≤ 1 / 2 ^ 53 := le_of_eq rfl
  have h0 : 0 ≤ h := by unfold h; positivity
  have h1 : h ≤ 1 / 2 ^ 100 := by unfold h; norm_num
  have p0 := abs_nonneg p
  have q0 := abs_nonneg q
  have e1 := hf.le p (by norm_num at m0 ⊢; linarith)
  have e2 := hf.le q (by norm_num at m0 ⊢; linarith)
  have es : |s| = 1 := by rcases hs with rfl | rfl <;> norm_num
  have sum : |fl p + s * fl q - (p + s * q)| ≤ u * m + 2 * h := by
    have : fl p + s * fl q - (p + s * q) = (fl p - p) + s * (fl q - q) := by ring
    rw [this]
    refine (abs_add_le _ _).trans ?_
    rw [abs_mul, es, one_mul]
    have := mul_le_mul_of_nonneg_left hm u0
    linarith
  have size : |fl p + s * fl q| ≤ m + (u * m + 2 * h) := by
    have t : |p + s * q| ≤ m := by
      refine (abs_add_le _ _).trans ?_
      rw [abs_mul, es, one_mul]; exact hm
    have : fl p + s * fl q = (p + s * q) + (fl p + s * fl q - (p + s * q)) := by ring
    rw [this]
    exact (abs_add_le _ _).trans (by linarith)
  have m1 : 0 ≤ m := by linarith
  have um : u * m ≤ m / 4 := by
    have := mul_le_mul_of_nonneg_right u1 m1
    norm_num at this ⊢; linarith
  have big : |fl p + s * fl q| ≤ 2 ^ 200 := by
    have x1 : (4 : ℝ) ≤ 2 ^ 199 := by norm_num
    have x2 : (2 : ℝ) ^ 200 = 2 * 2 ^ 199 := by norm_num
    have x3 : (1 : ℝ) / 2 ^ 100 ≤ 1 := by norm_num
    rw [x2]
    generalize (2 : ℝ) ^ 199 = X at *
    linarith
  have e3 := hf.le _ big
  have : u * |fl p + s * fl q| ≤ u * (2 * m) + h := by
    have a := mul_le_mul_of_nonneg_left size u0
    have b : u * (m + (u * m + 2 * h)) ≤ u * (2 * m + 2 * h) := mul_le_mul_of_nonneg_left (by linarith only [um, m1]) u0
    have c : u * (2 * h) ≤ h := by
      have := mul_le_mul_of_nonneg_right u1 h0
      norm_num at this ⊢; linarith
    linarith
  have : fl (fl p + s * fl q) - (p + s * q) = (fl (fl p + s * fl q) - (fl p + s * fl q)) + (fl p + s * fl q - (p + s * q)) := by ring
  rw [this]
  refine (abs_add_le _ _).trans ?_
  linarith

theorem cmul_close (a b : ℂ) (hab : ‖a‖ * ‖b‖ ≤ 2 ^ 199) : ‖cmul fl a b - a * b‖ ≤ 6 * (u * (‖a‖ * ‖b‖)) + 8 * h := by
  have cs : ∀ x y z w : ℝ, ∀ A B : ℝ, 0 ≤ A → 0 ≤ B → x ^ 2 + y ^ 2 = A ^ 2 → z ^ 2 + w ^ 2 = B ^ 2 → |x * z| + |y * w| ≤ A * B := by
    intro x y z w A B hA hB e1 e2
    rw [abs_mul, abs_mul]
    refine abs_le_of_sq_le_sq' ?_ (by positivity) |>.2
    rw [← sq_abs x, ← sq_abs y] at e1
    rw [← sq_abs z, ← sq_abs w] at e2
    rw [mul_pow, ← e1, ← e2]
    nlinarith [sq_nonneg (|x| * |w| - |y| * |z|)]
  have na : a.re ^ 2 + a.im ^ 2 = ‖a‖ ^ 2 := by rw [← Complex.normSq_eq_norm_sq, Complex.normSq_apply]; ring
  have nb : b.re ^ 2 + b.im ^ 2 = ‖b‖ ^ 2 := by rw [← Complex.normSq_eq_norm_sq, Complex.normSq_apply]; ring
  have r := two hf (a.re * b.re) (a.im * b.im) (‖a‖ * ‖b‖) (-1) (Or.inr rfl) (cs _ _ _ _ _ _ (norm_nonneg _) (norm_nonneg _) na nb) hab
  have i := two hf (a.re * b.im) (a.im * b.re) (‖a‖ * ‖b‖) 1 (Or.inl rfl) (cs _ _ _ _ _ _ (norm_nonneg _) (norm_nonneg _) na (by rw [← nb]; ring)) hab
  have := pair_close (cmul fl a b) (a * b) (3 * (u * (‖a‖ * ‖b‖)) + 4 * h) (by
      unfold cmul
      rw [Complex.mul_re]
      simpa only [neg_one_mul, ← sub_eq_add_neg] using r) (by
      unfold cmul
      rw [Complex.mul_im]
      simpa only [one_mul] using i)
  linarith

theorem ofInt_close (x : ℤ) (M : ℝ) (hx : |(x : ℝ)| ≤ M) (hM : M ≤ 2 ^ 200) : ‖ofInt fl x - x‖ ≤ u * M + h := by
  have e := hf.le x (hx.trans hM)
  have u0 : 0 ≤ u := by unfold u; positivity
  have : ofInt fl x - x = ((fl x - x : ℝ) : ℂ) := by
    apply Complex.ext <;> simp [ofInt]
  rw [this, Complex.norm_real]
  exact e.trans (by gcongr)

/-- The rounded table of roots. -/
theorem root_close {k : ℕ} (h1 : 1 ≤ k) (h2 : k ≤ 10) (i : ℕ) (hi : i < 2 ^ k) : ‖root fl (2 ^ k) i - FFT.exactRoots (2 ^ k) i‖ ≤ 54 / 10 ^ 16 := by
  have t := FFT.Table.table_close h1 h2 i hi
  have n1 : ‖FFT.exactRoots (2 ^ k) i‖ = 1 := by
    have := FFT.exactRoots_law.unit k i h1 h2 hi
    have e : ‖FFT.exactRoots (2 ^ k) i‖ ^ 2 = 1 := by
      have := congrArg norm this
      rw [norm_mul, norm_star, norm_one] at this
      rw [sq]; exact this
    exact (pow_eq_one_iff_of_nonneg (norm_nonneg _) (by norm_num)).1 e
  have nt : ‖FFT.Table.tableC k i‖ ≤ 11 / 10 := by
    have : FFT.Table.tableC k i = FFT.exactRoots (2 ^ k) i + (FFT.Table.tableC k i - FFT.exactRoots (2 ^ k) i) := by ring
    rw [this]
    refine (norm_add_le _ _).trans ?_
    rw [n1]; norm_num at t ⊢; linarith
  have u0 : 0 ≤ u := by unfold u; positivity
  have c : ‖root fl (2 ^ k) i - FFT.Table.tableC k i‖ ≤ 2 * (u * (11 / 10) + h) := by
    refine pair_close _ _ _ ?_ ?_
    · unfold root; rw [Nat.log2_two_pow]
      have r := (Complex.abs_re_le_norm (FFT.Table.tableC k i)).trans nt
      exact (hf.le _ (r.trans (by norm_num))).trans (by gcongr)
    · unfold root; rw [Nat.log2_two_pow]
      have r := (Complex.abs_im_le_norm (FFT.Table.tableC k i)).trans nt
      exact (hf.le _ (r.trans (by norm_num))).trans (by gcongr)
  have h1 : h ≤ 1 / 2 ^ 100 := by unfold h; norm_num
  rw [u_val] at c
  have : root fl (2 ^ k) i - FFT.exactRoots (2 ^ k) i = (root fl (2 ^ k) i - FFT.Table.tableC k i) + (FFT.Table.tableC k i - FFT.exactRoots (2 ^ k) i) := by ring
  rw [this]
  refine (norm_add_le _ _).trans ?_
  norm_num at t c h1 ⊢; linarith

end Verif.PyFloat
