import Verif.Float.Err
import Verif.FFT.Link
import Mathlib.Data.List.GetD

/-! # Accuracy of the transforms of `fft.py` in floating point -/

namespace Verif.PyFloat

open Verif.FFT (exactRoots exactRoots_law toK evalAt interleaveZ inDict)

/-- The exact value of the integer polynomial `f` of degree below `2^k` in slot `i`. -/
noncomputable def val (k : ℕ) (f : List ℤ) (i : ℕ) : ℂ := evalAt (exactRoots (2 ^ k) i) (toK f)

/-- Slot by slot within `e` of the transform of `f`. -/
def Ap (k : ℕ) (V : List ℂ) (f : List ℤ) (e : ℝ) : Prop := V.length = 2 ^ k ∧ ∀ i < 2 ^ k, ‖V.getD i 0 - val k f i‖ ≤ e

theorem root_norm {k : ℕ} (h1 : 1 ≤ k) (h2 : k ≤ 10) (i : ℕ) (hi : i < 2 ^ k) : ‖exactRoots (2 ^ k) i‖ = 1 := by
  have := exactRoots_law.unit k i h1 h2 hi
  have e : ‖exactRoots (2 ^ k) i‖ ^ 2 = 1 := by
    have := congrArg norm this
    rw [norm_mul, norm_star, norm_one] at this
    rw [sq]; exact this
  exact (pow_eq_one_iff_of_nonneg (norm_nonneg _) (by norm_num)).1 e

theorem getD_le (f : List ℤ) (B : ℝ) (b0 : 0 ≤ B) (hB : ∀ x ∈ f, |(x : ℝ)| ≤ B) (i : ℕ) : |(f.getD i 0 : ℝ)| ≤ B := by
  by_cases hi : i < f.length
  · rw [List.getD_eq_getElem _ _ hi]; exact hB _ (List.getElem_mem _)
  · rw [List.getD_eq_default _ _ (by omega)]; simpa using b0

theorem val_le {k : ℕ} (h2 : k ≤ 10) {f : List ℤ} (hl : f.length = 2 ^ k) (B : ℝ) (b0 : 0 ≤ B) (hB : ∀ x ∈ f, |(x : ℝ)| ≤ B) (i : ℕ) (hi : i < 2 ^ k) : ‖val k f i‖ ≤ 2 ^ k * B := by
  unfold val
  rw [FFT.evalAt_toK _ _ _ hl]
  refine (norm_sum_le _ _).trans ((Finset.sum_le_card_nsmul _ _ B ?_).trans (by rw [Finset.card_range, nsmul_eq_mul]; push_cast; exact le_refl _))
  intro j hj
  rw [norm_mul, norm_pow]
  have : ‖((f.getD j 0 : ℤ) : ℂ)‖ ≤ B := by rw [Complex.norm_intCast]; exact getD_le f B b0 hB j
  rcases Nat.eq_zero_or_pos k with rfl | hk
  · have : j = 0 := by have := Finset.mem_range.1 hj; rw [pow_zero] at this; omega
    subst this
    rw [pow_zero, mul_one]; assumption
  · rw [root_norm hk h2 i hi, one_pow, mul_one]; exact this

/-! ## Interleaving -/

theorem get_map {α : Type} (d : α) (m : ℕ) (φ : ℕ → α) (j : ℕ) (hj : j < m) : ((List.range m).map φ).getD j d = φ j := by
  rw [List.getD_eq_getElem _ _ (by simpa using hj), List.getElem_map, List.getElem_range]

theorem interleave_get (a b : List ℤ) (j : ℕ) (hj : j < 2 * a.length) : (interleaveZ a b).getD j 0 = if j % 2 = 0 then a.getD (j / 2) 0 else b.getD (j / 2) 0 := by
  unfold interleaveZ
  rw [List.getD_eq_getElem _ _ (by simpa using hj), List.getElem_map, List.getElem_range]

theorem ex_interleave {m : ℕ} (f : List ℤ) (hl : f.length = 2 * m) : ∃ a b : List ℤ, a.length = m ∧ b.length = m ∧ f = interleaveZ a b ∧ (∀ x ∈ a, x ∈ f) ∧ ∀ x ∈ b, x ∈ f := by
  refine ⟨(List.range m).map fun i => f.getD (2 * i) 0, (List.range m).map fun i => f.getD (2 * i + 1) 0, by simp, by simp, ?_, ?_, ?_⟩
  · apply List.ext_getElem
    · rw [FFT.length_interleaveZ]; simpa using hl
    · intro j h1 h2
      rw [← List.getD_eq_getElem _ 0 h1, ← List.getD_eq_getElem _ 0 h2, interleave_get _ _ _ (by simpa using hl ▸ h1)]
      have hj : j / 2 < m := by omega
      split
      · rw [get_map 0 m _ _ hj]; congr 1; omega
      · rw [get_map 0 m _ _ hj]; congr 1; omega
  · intro x hx
    obtain ⟨i, hi, rfl⟩ := List.mem_map.1 hx
    have := List.mem_range.1 hi
    rw [List.getD_eq_getElem _ _ (by omega)]; exact List.getElem_mem _
  · intro x hx
    obtain ⟨i, hi, rfl⟩ := List.mem_map.1 hx
    have := List.mem_range.1 hi
    rw [List.getD_eq_getElem _ _ (by omega)]; exact List.getElem_mem _

/-- The values of an interleaved polynomial. -/
theorem val_merge {k : ℕ} (h2 : k < 10) {a b : List ℤ} (la : a.length = 2 ^ k) (lb : b.length = 2 ^ k) (i : ℕ) (hi : i < 2 ^ k) :
    val (k + 1) (interleaveZ a b) (2 * i) = val k a i + exactRoots (2 ^ (k + 1)) (2 * i) * val k b i ∧
    val (k + 1) (interleaveZ a b) (2 * i + 1) = val k a i - exactRoots (2 ^ (k + 1)) (2 * i) * val k b i := by
  have e1 := FFT.merge_tr exactRoots_law h2 (a := toK a) (b := toK b) (by rw [FFT.length_toK, la]) (by rw [FFT.length_toK, lb])
  rw [FFT.mergeFft_eq (k := k + 1) (a := FFT.tr exactRoots k (toK a)) (b := FFT.tr exactRoots k (toK b)) exactRoots (by omega) (by omega) (FFT.length_tr _ _ _) (FFT.length_tr _ _ _), FFT.interleave_toK] at e1
  injection e1 with e1
  have p := pow_succ 2 k
  have get : ∀ j < 2 ^ (k + 1), val (k + 1) (interleaveZ a b) j = if j % 2 = 0 then val k a (j / 2) + exactRoots (2 ^ (k + 1)) (2 * (j / 2)) * val k b (j / 2)
      else val k a (j / 2) - exactRoots (2 ^ (k + 1)) (2 * (j / 2)) * val k b (j / 2) := by
    intro j hj
    have := congrArg (fun l => l.getD j 0) e1
    rw [FFT.getD_vec_lt hj] at this
    unfold FFT.tr at this
    rw [FFT.getD_vec_lt hj] at this
    rw [FFT.getD_vec_lt (show j / 2 < 2 ^ k by omega), FFT.getD_vec_lt (show j / 2 < 2 ^ k by omega)] at this
    exact this.symm
  constructor
  · rw [get _ (by omega), if_pos (by omega), show 2 * i / 2 = i by omega]
  · rw [get _ (by omega), if_neg (by omega), show (2 * i + 1) / 2 = i by omega]

/-- The values of the two halves. -/
theorem val_split {k : ℕ} (h2 : k < 10) {a b : List ℤ} (la : a.length = 2 ^ k) (lb : b.length = 2 ^ k) (i : ℕ) (hi : i < 2 ^ k) :
    val k a i = (val (k + 1) (interleaveZ a b) (2 * i) + val (k + 1) (interleaveZ a b) (2 * i + 1)) / 2 ∧
    val k b i = (val (k + 1) (interleaveZ a b) (2 * i) - val (k + 1) (interleaveZ a b) (2 * i + 1)) / 2 * star (exactRoots (2 ^ (k + 1)) (2 * i)) := by
  obtain ⟨e1, e2⟩ := val_merge h2 la lb i hi
  have un := exactRoots_law.unit (k + 1) (2 * i) (by omega) (by omega) (by rw [pow_succ]; omega)
  rw [e1, e2]
  constructor
  · ring
  · have : (val k a i + exactRoots (2 ^ (k + 1)) (2 * i) * val k b i - (val k a i - exactRoots (2 ^ (k + 1)) (2 * i) * val k b i)) / 2 * star (exactRoots (2 ^ (k + 1)) (2 * i)) =
        val k b i * (exactRoots (2 ^ (k + 1)) (2 * i) * star (exactRoots (2 ^ (k + 1)) (2 * i))) := by ring
    rw [this, un, mul_one]

/-! ## One butterfly -/

variable {fl : ℝ → ℝ} (hf : Rounds fl)
include hf

omit hf in
theorem h_small (M : ℝ) (hM : 1 ≤ M) : 0 ≤ h ∧ h ≤ M / 10 ^ 20 := by
  unfold h
  constructor
  · positivity
  · refine le_trans ?_ (div_le_div_of_nonneg_right hM (by positivity))
    norm_num

omit hf in
theorem u_mul (x : ℝ) (hx : 0 ≤ x) : 0 ≤ u * x ∧ u * x ≤ 112 / 10 ^ 18 * x := by
  rw [u_val]
  refine ⟨by positivity, mul_le_mul_of_nonneg_right (by norm_num) hx⟩

/-- A product with a rounded root. -/
theorem rot (b w V r : ℂ) (M e : ℝ) (hM : 1 ≤ M) (hM2 : M ≤ 2 ^ 100) (he : e ≤ M / 10 ^ 10) (hb : ‖b - V‖ ≤ e) (nV : ‖V‖ ≤ M) (nr : ‖r‖ = 1) (hw : ‖w - r‖ ≤ 54 / 10 ^ 16) :
    ‖cmul fl w b - r * V‖ ≤ e + 608 / 10 ^ 17 * M := by
  have nb : ‖b‖ ≤ M + M / 10 ^ 10 := by
    have : b = V + (b - V) := by ring
    rw [this]; exact (norm_add_le _ _).trans (by linarith)
  have nw : ‖w‖ ≤ 1 + 1 / 10 ^ 10 := by
    have : w = r + (w - r) := by ring
    rw [this]; refine (norm_add_le _ _).trans ?_
    rw [nr]; norm_num at hw ⊢; linarith
  have p : ‖w‖ * ‖b‖ ≤ (1 + 1 / 10 ^ 10) * (M + M / 10 ^ 10) := mul_le_mul nw nb (norm_nonneg _) (by norm_num)
  have p0 : 0 ≤ ‖w‖ * ‖b‖ := by positivity
  have p2 : ‖w‖ * ‖b‖ ≤ 101 / 100 * M := by norm_num at p ⊢; linarith
  have c := cmul_close hf w b (p2.trans (by norm_num at hM2 ⊢; linarith))
  obtain ⟨h0, h1⟩ := h_small M hM
  obtain ⟨-, u1⟩ := u_mul _ p0
  have d : ‖(w - r) * b‖ ≤ 54 / 10 ^ 16 * (M + M / 10 ^ 10) := by
    rw [norm_mul]; exact mul_le_mul hw nb (norm_nonneg _) (by norm_num)
  have d2 : ‖r * (b - V)‖ ≤ e := by rw [norm_mul, nr, one_mul]; exact hb
  have : cmul fl w b - r * V = (cmul fl w b - w * b) + ((w - r) * b + r * (b - V)) := by ring
  rw [this]
  refine (norm_add_le _ _).trans ((add_le_add c ((norm_add_le _ _).trans (add_le_add d d2))).trans ?_)
  norm_num at u1 h1 p2 ⊢
  linarith

theorem slot_merge (a b w A V r : ℂ) (M e : ℝ) (hM : 1 ≤ M) (hM2 : M ≤ 2 ^ 100) (he : e ≤ M / 10 ^ 10) (ha : ‖a - A‖ ≤ e) (hb : ‖b - V‖ ≤ e) (nA : ‖A‖ ≤ M) (nV : ‖V‖ ≤ M) (nr : ‖r‖ = 1)
    (hw : ‖w - r‖ ≤ 54 / 10 ^ 16) : ‖cadd fl a (cmul fl w b) - (A + r * V)‖ ≤ 2 * e + 72 / 10 ^ 16 * M ∧ ‖csub fl a (cmul fl w b) - (A - r * V)‖ ≤ 2 * e + 72 / 10 ^ 16 * M := by
  have R := rot hf b w V r M e hM hM2 he hb nV nr hw
  obtain ⟨x, hx⟩ : ∃ x, cmul fl w b = x := ⟨_, rfl⟩
  rw [hx] at R ⊢
  have nrV : ‖r * V‖ ≤ M := by rw [norm_mul, nr, one_mul]; exact nV
  obtain ⟨h0, h1⟩ := h_small M hM
  have s : ‖(a + x) - (A + r * V)‖ ≤ 2 * e + 608 / 10 ^ 17 * M := by
    have : (a + x) - (A + r * V) = (a - A) + (x - r * V) := by ring
    rw [this]; exact (norm_add_le _ _).trans (by linarith)
  have d : ‖(a - x) - (A - r * V)‖ ≤ 2 * e + 608 / 10 ^ 17 * M := by
    have : (a - x) - (A - r * V) = (a - A) - (x - r * V) := by ring
    rw [this]; exact (norm_sub_le _ _).trans (by linarith)
  have ns : ‖a + x‖ ≤ 201 / 100 * M := by
    have : a + x = (A + r * V) + ((a + x) - (A + r * V)) := by ring
    rw [this]; refine (norm_add_le _ _).trans ?_
    have := norm_add_le A (r * V)
    norm_num at he ⊢; linarith
  have nd : ‖a - x‖ ≤ 201 / 100 * M := by
    have : a - x = (A - r * V) + ((a - x) - (A - r * V)) := by ring
    rw [this]; refine (norm_add_le _ _).trans ?_
    have := norm_sub_le A (r * V)
    norm_num at he ⊢; linarith
  have big : 201 / 100 * M ≤ 2 ^ 200 := by norm_num at hM2 ⊢; linarith
  constructor
  · have c := cadd_close hf a x (ns.trans big)
    obtain ⟨-, u1⟩ := u_mul _ (norm_nonneg (a + x))
    have : cadd fl a x - (A + r * V) = (cadd fl a x - (a + x)) + ((a + x) - (A + r * V)) := by ring
    rw [this]; refine (norm_add_le _ _).trans ((add_le_add c s).trans ?_)
    norm_num at u1 h1 ns ⊢; linarith
  · have c := csub_close hf a x (nd.trans big)
    obtain ⟨-, u1⟩ := u_mul _ (norm_nonneg (a - x))
    have : csub fl a x - (A - r * V) = (csub fl a x - (a - x)) + ((a - x) - (A - r * V)) := by ring
    rw [this]; refine (norm_add_le _ _).trans ((add_le_add c d).trans ?_)
    norm_num at u1 h1 nd ⊢; linarith

/-- Half of a rounded number. -/
theorem halve (s S : ℂ) (M e : ℝ) (hM : 1 ≤ M) (hM2 : M ≤ 2 ^ 100) (hs : ‖s - S‖ ≤ e) (ns : ‖s‖ ≤ 202 / 100 * M) : ‖cmul fl ⟨1 / 2, 0⟩ s - S / 2‖ ≤ e / 2 + 68 / 10 ^ 17 * M := by
  have e1 : (⟨1 / 2, 0⟩ : ℂ) = ((1 / 2 : ℝ) : ℂ) := by apply Complex.ext <;> simp
  have n1 : ‖(⟨1 / 2, 0⟩ : ℂ)‖ = 1 / 2 := by rw [e1, Complex.norm_real]; norm_num
  have p : ‖(⟨1 / 2, 0⟩ : ℂ)‖ * ‖s‖ ≤ 101 / 100 * M := by rw [n1]; linarith
  have c := cmul_close hf ⟨1 / 2, 0⟩ s (p.trans (by norm_num at hM2 ⊢; linarith))
  obtain ⟨-, u1⟩ := u_mul (‖(⟨1 / 2, 0⟩ : ℂ)‖ * ‖s‖) (by positivity)
  obtain ⟨h0, h1⟩ := h_small M hM
  have : cmul fl ⟨1 / 2, 0⟩ s - S / 2 = (cmul fl ⟨1 / 2, 0⟩ s - ⟨1 / 2, 0⟩ * s) + ⟨1 / 2, 0⟩ * (s - S) := by
    have : (⟨1 / 2, 0⟩ : ℂ) = 1 / 2 := by rw [e1]; push_cast; ring
    rw [this]; ring
  rw [this]
  refine (norm_add_le _ _).trans ?_
  rw [norm_mul (⟨1 / 2, 0⟩ : ℂ) (s - S), n1]
  rw [n1] at c p u1
  norm_num at u1 h1 p c ⊢; linarith

theorem slot_split (x y w X Y r : ℂ) (M e : ℝ) (hM : 1 ≤ M) (hM2 : M ≤ 2 ^ 100) (he : e ≤ M / 10 ^ 11) (hx : ‖x - X‖ ≤ e) (hy : ‖y - Y‖ ≤ e) (nX : ‖X‖ ≤ M) (nY : ‖Y‖ ≤ M) (nr : ‖r‖ = 1)
    (hw : ‖w - r‖ ≤ 54 / 10 ^ 16) : ‖cmul fl ⟨1 / 2, 0⟩ (cadd fl x y) - (X + Y) / 2‖ ≤ e + 75 / 10 ^ 16 * M ∧
      ‖cmul fl (cmul fl ⟨1 / 2, 0⟩ (csub fl x y)) (star w) - (X - Y) / 2 * star r‖ ≤ e + 75 / 10 ^ 16 * M := by
  obtain ⟨h0, h1⟩ := h_small M hM
  have s : ‖(x + y) - (X + Y)‖ ≤ 2 * e := by
    have : (x + y) - (X + Y) = (x - X) + (y - Y) := by ring
    rw [this]; exact (norm_add_le _ _).trans (by linarith)
  have d : ‖(x - y) - (X - Y)‖ ≤ 2 * e := by
    have : (x - y) - (X - Y) = (x - X) - (y - Y) := by ring
    rw [this]; exact (norm_sub_le _ _).trans (by linarith)
  have ns : ‖x + y‖ ≤ 201 / 100 * M := by
    have : x + y = (X + Y) + ((x + y) - (X + Y)) := by ring
    rw [this]; refine (norm_add_le _ _).trans ?_
    have := norm_add_le X Y
    norm_num at he ⊢; linarith
  have nd : ‖x - y‖ ≤ 201 / 100 * M := by
    have : x - y = (X - Y) + ((x - y) - (X - Y)) := by ring
    rw [this]; refine (norm_add_le _ _).trans ?_
    have := norm_sub_le X Y
    norm_num at he ⊢; linarith
  have big : 201 / 100 * M ≤ 2 ^ 200 := by norm_num at hM2 ⊢; linarith
  have c1 : ‖cadd fl x y - (X + Y)‖ ≤ 2 * e + 46 / 10 ^ 17 * M := by
    have c := cadd_close hf x y (ns.trans big)
    obtain ⟨-, u1⟩ := u_mul _ (norm_nonneg (x + y))
    have : cadd fl x y - (X + Y) = (cadd fl x y - (x + y)) + ((x + y) - (X + Y)) := by ring
    rw [this]; refine (norm_add_le _ _).trans ((add_le_add c s).trans ?_)
    norm_num at u1 h1 ns ⊢; linarith
  have c2 : ‖csub fl x y - (X - Y)‖ ≤ 2 * e + 46 / 10 ^ 17 * M := by
    have c := csub_close hf x y (nd.trans big)
    obtain ⟨-, u1⟩ := u_mul _ (norm_nonneg (x - y))
    have : csub fl x y - (X - Y) = (csub fl x y - (x - y)) + ((x - y) - (X - Y)) := by ring
    rw [this]; refine (norm_add_le _ _).trans ((add_le_add c d).trans ?_)
    norm_num at u1 h1 nd ⊢; linarith
  have size : ∀ v S : ℂ, ‖S‖ ≤ 2 * M → ‖v - S‖ ≤ 2 * e + 46 / 10 ^ 17 * M → ‖v‖ ≤ 202 / 100 * M := fun v S hS hv => by
    have : v = S + (v - S) := by ring
    rw [this]; refine (norm_add_le _ _).trans ?_
    norm_num at he hv ⊢; linarith
  have k1 := halve hf _ _ M _ hM hM2 c1 (size _ _ ((norm_add_le X Y).trans (by linarith)) c1)
  have k2 := halve hf _ _ M _ hM hM2 c2 (size _ _ ((norm_sub_le X Y).trans (by linarith)) c2)
  constructor
  · refine k1.trans ?_
    norm_num; linarith
  · have nS : ‖(X - Y) / 2‖ ≤ M := by
      rw [norm_div]
      have := norm_sub_le X Y
      norm_num; linarith
    have comm : ∀ a b : ℂ, cmul fl a b = cmul fl b a := fun a b => by
      unfold cmul
      congr 2
      · rw [mul_comm a.re, mul_comm a.im]
      · rw [mul_comm a.re, mul_comm a.im, add_comm]
    have := rot hf (cmul fl ⟨1 / 2, 0⟩ (csub fl x y)) (star w) ((X - Y) / 2) (star r) M (e + 100 / 10 ^ 17 * M) hM hM2 (by norm_num at he ⊢; linarith) (k2.trans (by norm_num; linarith)) nS
      (by rw [norm_star]; exact nr) (by rw [← star_sub, norm_star]; exact hw)
    rw [comm, mul_comm]
    refine this.trans ?_
    norm_num; linarith

end Verif.PyFloat
