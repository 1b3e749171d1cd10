import Verif.CRef.SignTree
import Verif.CRef.SignDynTree
import Verif.CRef.FprConst
import Verif.CRef.OrthParseval

/-! # The tree signer returns transforms of the drawn integers -/

namespace Verif.CRef.SignTree

open Verif.Ring Verif.CRef.Fpr Verif.CRef.Fft Verif.CRef.SignSampler Verif.CRef.SignDyn

theorem gm_two : gm (2 ^ 1 + 0) = (invsqrt2, invsqrt2) := by decide +kernel

theorem val_invsqrt2 : |val invsqrt2| ≤ 1 := by
  have e : val invsqrt2 = ((2 ^ 52 + 1865452045155277 : ℕ) : ℝ) * (2 : ℝ) ^ ((1022 : ℤ) - 1075) := by
    rw [val_word invsqrt2 0 1022 1865452045155277 (fields_dec _ _ _ _ (by decide)) (by norm_num)]; norm_num
  rw [e]
  norm_num

/-- One factor of the unrolled merge: `fl (fl r * c)`. -/
theorem factor_close (x : W) (r Z : ℝ) (Z1 : 1 ≤ Z) (Z2 : Z ≤ 2 ^ 50) (hr : |r| ≤ 2 * Z) (et : eta ≤ uu * Z / 2 ^ 10) (h : Rounded r x) : Ok (mul x invsqrt2) ∧ |val (mul x invsqrt2) - r * val invsqrt2| ≤ uu * (5 * Z) := by
  have u0 := uu_pos
  have es := eta_small
  have u1 : uu ≤ 1 / 2 ^ 53 := le_refl _
  have hi := val_invsqrt2
  have hg : (2 : ℝ) ^ 60 ≤ huge := by unfold huge; exact pow_le_pow_right₀ (by norm_num) (by norm_num)
  obtain ⟨-, c1⟩ := rounded_close r x h (by norm_num at *; linarith)
  have uZ : uu * Z ≤ Z / 2 ^ 53 := by unfold uu; rw [one_div, inv_mul_eq_div]
  have m1 : uu * |r| ≤ uu * (2 * Z) := mul_le_mul_of_nonneg_left hr u0.le
  have uP : 0 ≤ uu * Z := by positivity
  have e2 : eta ≤ uu * (Z / 100) := by norm_num at et; linarith
  have bx : |val x| ≤ 201 / 100 * Z := by
    have := abs_add_le (val x - r) r
    rw [sub_add_cancel] at this
    norm_num at *; linarith
  have bp : |val x * val invsqrt2| ≤ 201 / 100 * Z := by
    rw [abs_mul]
    exact (mul_le_of_le_one_right (abs_nonneg _) hi).trans bx
  obtain ⟨o, c2⟩ := rounded_close _ _ (C99_mul x invsqrt2) (by norm_num at *; linarith)
  refine ⟨o, ?_⟩
  have m2 : uu * |val x * val invsqrt2| ≤ uu * (201 / 100 * Z) := mul_le_mul_of_nonneg_left bp u0.le
  have d : |val x * val invsqrt2 - r * val invsqrt2| ≤ uu * |r| + eta := by
    rw [← sub_mul, abs_mul]
    exact (mul_le_of_le_one_right (abs_nonneg _) hi).trans c1
  have t := abs_add_le (val (mul x invsqrt2) - val x * val invsqrt2) (val x * val invsqrt2 - r * val invsqrt2)
  rw [sub_add_sub_cancel] at t
  linarith

theorem merge4_int (Z : ℕ) (hZ : 1 ≤ Z) (hZ2 : Z ≤ 2 ^ 50) (a0 a1 b0 b1 : ℤ) (ha0 : |a0| ≤ Z) (ha1 : |a1| ≤ Z) (hb0 : |b0| ≤ Z) (hb1 : |b1| ≤ Z) :
    IntFft Z 2 (merge4 (ofInt a0, ofInt a1) (ofInt b0, ofInt b1)) [a0, b0, a1, b1] := by
  have Z1 : (1 : ℝ) ≤ Z := by exact_mod_cast hZ
  have Z2 : (Z : ℝ) ≤ 2 ^ 50 := by exact_mod_cast hZ2
  have lt : ∀ x : ℤ, |x| ≤ Z → |x| < 2 ^ 53 := fun x h => h.trans_lt (by exact_mod_cast (show Z < 2 ^ 53 by omega))
  have re : ∀ x : ℤ, |x| ≤ Z → |(x : ℝ)| ≤ Z := fun x h => by exact_mod_cast h
  obtain ⟨oa0, va0⟩ := val_ofInt a0 (lt _ ha0)
  obtain ⟨oa1, va1⟩ := val_ofInt a1 (lt _ ha1)
  obtain ⟨ob0, vb0⟩ := val_ofInt b0 (lt _ hb0)
  obtain ⟨ob1, vb1⟩ := val_ofInt b1 (lt _ hb1)
  have u0 := uu_pos
  have rg := inRange_of (Z : ℝ) Z1 (Z2.trans (by norm_num))
  have et := range_eta _ rg
  have bg := range_big _ rg
  have Rm := C99_sub _ _ ob0 ob1
  have Rp := C99_add _ _ ob0 ob1
  rw [vb0, vb1] at Rm Rp
  have rb0 := re _ hb0; have rb1 := re _ hb1; have ra0 := re _ ha0; have ra1 := re _ ha1
  obtain ⟨o1, c1⟩ := factor_close _ ((b0 : ℝ) - b1) Z Z1 Z2 ((abs_sub _ _).trans (by linarith)) et Rm
  obtain ⟨o2, c2⟩ := factor_close _ ((b0 : ℝ) + b1) Z Z1 Z2 ((abs_add_le _ _).trans (by linarith)) et Rp
  unfold merge4
  dsimp only
  generalize hc1 : mul (sub (ofInt b0) (ofInt b1)) invsqrt2 = x1 at *
  generalize hc2 : mul (add (ofInt b0) (ofInt b1)) invsqrt2 = x2 at *
  -- the exact values
  have hg := gm_close 1 (by norm_num) 0 (by norm_num)
  rw [gm_two] at hg
  obtain ⟨-, hg⟩ := hg
  have nA : ‖(⟨a0, a1⟩ : ℂ)‖ ≤ 2 * Z := (norm_le_parts _).trans (by show |(a0 : ℝ)| + |(a1 : ℝ)| ≤ _; linarith)
  have nB : ‖(⟨b0, b1⟩ : ℂ)‖ ≤ 2 * Z := (norm_le_parts _).trans (by show |(b0 : ℝ)| + |(b1 : ℝ)| ≤ _; linarith)
  have eA : cv (ofInt a0, ofInt a1) = (⟨a0, a1⟩ : ℂ) := by unfold cv; rw [va0, va1]
  have cB : ‖cv (x1, x2) - (⟨b0, b1⟩ : ℂ) * gmE 1 0‖ ≤ uu * (18 * Z) := by
    have e : (⟨b0, b1⟩ : ℂ) * cv (invsqrt2, invsqrt2) = ⟨(b0 - b1) * val invsqrt2, (b0 + b1) * val invsqrt2⟩ := by
      unfold cv; apply Complex.ext
      · show (b0 : ℝ) * val invsqrt2 - b1 * val invsqrt2 = _; ring
      · show (b0 : ℝ) * val invsqrt2 + b1 * val invsqrt2 = _; ring
    have t := norm_add_le (cv (x1, x2) - (⟨b0, b1⟩ : ℂ) * cv (invsqrt2, invsqrt2)) ((⟨b0, b1⟩ : ℂ) * (cv (invsqrt2, invsqrt2) - gmE 1 0))
    rw [show cv (x1, x2) - (⟨b0, b1⟩ : ℂ) * cv (invsqrt2, invsqrt2) + (⟨b0, b1⟩ : ℂ) * (cv (invsqrt2, invsqrt2) - gmE 1 0) = cv (x1, x2) - (⟨b0, b1⟩ : ℂ) * gmE 1 0 by ring] at t
    have p : ‖cv (x1, x2) - (⟨b0, b1⟩ : ℂ) * cv (invsqrt2, invsqrt2)‖ ≤ uu * (5 * Z) + uu * (5 * Z) := by
      rw [e]
      refine (norm_le_parts _).trans ?_
      show |val x1 - (b0 - b1) * val invsqrt2| + |val x2 - (b0 + b1) * val invsqrt2| ≤ _
      linarith
    have q : ‖(⟨b0, b1⟩ : ℂ) * (cv (invsqrt2, invsqrt2) - gmE 1 0)‖ ≤ 2 * Z * (4 * uu) := by
      rw [norm_mul]; exact mul_le_mul nB hg (norm_nonneg _) (by positivity)
    linarith
  have uP : 0 ≤ uu * (Z : ℝ) := by positivity
  have uZ : uu * (Z : ℝ) ≤ Z / 2 ^ 53 := by unfold uu; rw [one_div, inv_mul_eq_div]
  have nE : ‖(⟨b0, b1⟩ : ℂ) * gmE 1 0‖ ≤ 2 * Z := by rw [norm_mul, gmE_norm, mul_one]; exact nB
  have nx : ‖cv (x1, x2)‖ ≤ 21 / 10 * Z := by
    have := norm_add_le (cv (x1, x2) - (⟨b0, b1⟩ : ℂ) * gmE 1 0) ((⟨b0, b1⟩ : ℂ) * gmE 1 0)
    rw [sub_add_cancel] at this
    norm_num at *; linarith
  obtain ⟨gp, kp⟩ := cAdd_close (ofInt a0, ofInt a1) (x1, x2) ⟨oa0, oa1⟩ ⟨o1, o2⟩ (by rw [eA]; norm_num at *; linarith) (by norm_num at *; linarith)
  obtain ⟨gs, ks⟩ := cSub_close (ofInt a0, ofInt a1) (x1, x2) ⟨oa0, oa1⟩ ⟨o1, o2⟩ (by rw [eA]; norm_num at *; linarith) (by norm_num at *; linarith)
  rw [eA] at kp ks
  have bp := mul_le_mul_of_nonneg_left ((norm_add_le (⟨a0, a1⟩ : ℂ) (cv (x1, x2))).trans (add_le_add nA nx)) u0.le
  have bs := mul_le_mul_of_nonneg_left ((norm_sub_le (⟨a0, a1⟩ : ℂ) (cv (x1, x2))).trans (add_le_add nA nx)) u0.le
  generalize cAdd (ofInt a0, ofInt a1) (x1, x2) = P at *
  generalize cSub (ofInt a0, ofInt a1) (x1, x2) = S at *
  have gb : ∀ j, |(([a0, b0, a1, b1] : List ℤ).getD j 0 : ℝ)| ≤ Z := fun j => by
    have := getD_bound [a0, b0, a1, b1] Z (by positivity) (by
      intro x hx
      simp only [List.mem_cons, List.not_mem_nil, or_false] at hx
      rcases hx with rfl | rfl | rfl | rfl <;> assumption) j
    exact_mod_cast this
  show Ap 1 _ _ _ _
  refine ⟨rfl, rfl, ?_, fun p hp => pev_le _ _ Z (fun j _ => gb j) _ (root_norm _ _)⟩
  have E : (⟨a0, a1⟩ : ℂ) = pev 1 (fun j => (([a0, b0, a1, b1] : List ℤ).getD (2 * j) 0 : ℝ)) (root 1 0) := by
    rw [Orth.pev_one]; rfl
  have O : (⟨b0, b1⟩ : ℂ) = pev 1 (fun j => (([a0, b0, a1, b1] : List ℤ).getD (2 * j + 1) 0 : ℝ)) (root 1 0) := by
    rw [Orth.pev_one]; rfl
  intro p hp
  have cs : p = 2 * 0 ∨ p = 2 * 0 + 1 := by norm_num at hp ⊢; omega
  have goalB : (8 * (1 : ℕ) : ℝ) * (uu * (2 ^ (1 + 1) * Z)) = uu * (32 * Z) := by push_cast; ring
  rcases cs with rfl | rfl
  · refine ⟨gp, ?_⟩
    show ‖cv P - _‖ ≤ _
    rw [pev_split, root_even 0 0 (by norm_num), gmE_root_sq 0 0 (by norm_num), ← E, ← O, goalB]
    have t := norm_add_le (cv P - ((⟨a0, a1⟩ : ℂ) + cv (x1, x2))) (cv (x1, x2) - (⟨b0, b1⟩ : ℂ) * gmE 1 0)
    rw [show cv P - ((⟨a0, a1⟩ : ℂ) + cv (x1, x2)) + (cv (x1, x2) - (⟨b0, b1⟩ : ℂ) * gmE 1 0) = cv P - ((⟨a0, a1⟩ : ℂ) + gmE (0 + 1) 0 * (⟨b0, b1⟩ : ℂ)) by rw [zero_add]; ring] at t
    norm_num at *; linarith
  · refine ⟨gs, ?_⟩
    show ‖cv S - _‖ ≤ _
    rw [pev_split, root_odd 0 0 (by norm_num), neg_sq, gmE_root_sq 0 0 (by norm_num), ← E, ← O, goalB]
    have t := norm_sub_le (cv S - ((⟨a0, a1⟩ : ℂ) - cv (x1, x2))) (cv (x1, x2) - (⟨b0, b1⟩ : ℂ) * gmE 1 0)
    rw [show cv S - ((⟨a0, a1⟩ : ℂ) - cv (x1, x2)) - (cv (x1, x2) - (⟨b0, b1⟩ : ℂ) * gmE 1 0) = cv S - ((⟨a0, a1⟩ : ℂ) + -gmE (0 + 1) 0 * (⟨b0, b1⟩ : ℂ)) by rw [zero_add]; ring] at t
    norm_num at *; linarith

end Verif.CRef.SignTree
