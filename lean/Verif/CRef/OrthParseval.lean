import Verif.CRef.FftProps
import Verif.CRef.FftInt

/-! # Parseval and interpolation for real polynomials at the roots of `X^n + 1` -/

namespace Verif.CRef.Orth

open Verif.CRef.Fpr Verif.CRef.Fft

theorem pev_one (f : ℕ → ℝ) : pev 1 f (root 1 0) = (⟨f 0, f 1⟩ : ℂ) := by
  unfold pev root
  rw [show bitrev (1 - 1) 0 = 0 from rfl, show ((4 * 0 + 1 : ℕ) * Real.pi * Complex.I / 2 ^ 1 : ℂ) = Real.pi / 2 * Complex.I by push_cast; ring, Complex.exp_pi_div_two_mul_I]
  rw [show 2 ^ 1 = 1 + 1 from rfl, Finset.sum_range_succ, Finset.sum_range_succ]
  apply Complex.ext <;> simp

theorem sum_even_odd {α : Type*} [AddCommMonoid α] (g : ℕ → α) : ∀ n : ℕ, ∑ j ∈ Finset.range (2 * n), g j = ∑ j ∈ Finset.range n, (g (2 * j) + g (2 * j + 1))
  | 0 => by simp
  | n + 1 => by
    rw [show 2 * (n + 1) = 2 * n + 1 + 1 by ring, Finset.sum_range_succ, Finset.sum_range_succ, sum_even_odd g n, Finset.sum_range_succ, add_assoc]

theorem parallelogram (a b w : ℂ) (hw : ‖w‖ = 1) : ‖a + w * b‖ ^ 2 + ‖a + -w * b‖ ^ 2 = 2 * (‖a‖ ^ 2 + ‖b‖ ^ 2) := by
  have h : w.re * w.re + w.im * w.im = 1 := by rw [← Complex.normSq_apply, Complex.normSq_eq_norm_sq, hw]; norm_num
  simp only [← Complex.normSq_eq_norm_sq, Complex.normSq_apply, Complex.add_re, Complex.add_im, Complex.mul_re, Complex.mul_im, Complex.neg_re, Complex.neg_im]
  linear_combination 2 * (b.re * b.re + b.im * b.im) * h

/-- Parseval: half of the roots, one of each conjugate pair. -/
theorem parseval : ∀ (s : ℕ) (f : ℕ → ℝ), ∑ p ∈ Finset.range (2 ^ s), ‖pev (s + 1) f (root (s + 1) p)‖ ^ 2 = 2 ^ s * ∑ j ∈ Finset.range (2 ^ (s + 1)), f j ^ 2
  | 0, f => by
    rw [pow_zero, Finset.sum_range_one, zero_add, pev_one, pow_one, Finset.sum_range_succ, Finset.sum_range_one, ← Complex.normSq_eq_norm_sq, Complex.normSq_mk]
    ring
  | s + 1, f => by
    rw [show 2 ^ (s + 1) = 2 * 2 ^ s by ring, sum_even_odd, show 2 ^ (s + 1 + 1) = 2 * 2 ^ (s + 1) by ring, sum_even_odd (fun j => f j ^ 2)]
    have e : ∀ p ∈ Finset.range (2 ^ s), ‖pev (s + 1 + 1) f (root (s + 1 + 1) (2 * p))‖ ^ 2 + ‖pev (s + 1 + 1) f (root (s + 1 + 1) (2 * p + 1))‖ ^ 2 =
        2 * (‖pev (s + 1) (fun j => f (2 * j)) (root (s + 1) p)‖ ^ 2 + ‖pev (s + 1) (fun j => f (2 * j + 1)) (root (s + 1) p)‖ ^ 2) := by
      intro p hp
      have hp := Finset.mem_range.1 hp
      rw [root_even s p hp, root_odd s p hp, pev_split (s + 1) f (gmE (s + 1) p), pev_split (s + 1) f (-gmE (s + 1) p), neg_sq, gmE_root_sq s p hp]
      exact parallelogram _ _ _ (gmE_norm _ _)
    rw [Finset.sum_congr rfl e, ← Finset.mul_sum, Finset.sum_add_distrib, parseval s, parseval s, Finset.sum_add_distrib]
    ring

/-- Interpolation. -/
theorem interpolate : ∀ (s : ℕ) (z : ℕ → ℂ), ∃ f : ℕ → ℝ, ∀ p < 2 ^ s, pev (s + 1) f (root (s + 1) p) = z p
  | 0, z => ⟨fun j => if j = 0 then (z 0).re else (z 0).im, fun p hp => by
      have : p = 0 := by simpa using hp
      subst this
      rw [zero_add, pev_one]; simp⟩
  | s + 1, z => by
    obtain ⟨a, ha⟩ := interpolate s (fun p => (z (2 * p) + z (2 * p + 1)) / 2)
    obtain ⟨b, hb⟩ := interpolate s (fun p => (z (2 * p) - z (2 * p + 1)) / (2 * gmE (s + 1) p))
    refine ⟨fun j => if j % 2 = 0 then a (j / 2) else b (j / 2), fun p hp => ?_⟩
    have e0 : (fun j => if 2 * j % 2 = 0 then a (2 * j / 2) else b (2 * j / 2)) = a := by
      funext j; rw [if_pos (by omega), show 2 * j / 2 = j by omega]
    have e1 : (fun j => if (2 * j + 1) % 2 = 0 then a ((2 * j + 1) / 2) else b ((2 * j + 1) / 2)) = b := by
      funext j; rw [if_neg (by omega), show (2 * j + 1) / 2 = j by omega]
    have hq : p / 2 < 2 ^ s := by rw [pow_succ] at hp; omega
    have g0 : gmE (s + 1) (p / 2) ≠ 0 := by
      intro h
      have := gmE_norm (s + 1) (p / 2)
      rw [h, norm_zero] at this
      norm_num at this
    rw [pev_split]
    simp only [e0, e1]
    rcases Nat.mod_two_eq_zero_or_one p with c | c
    · have hp2 : p = 2 * (p / 2) := by omega
      rw [hp2, show s + 1 + 1 = s + 2 from rfl, root_even s _ hq, gmE_root_sq s _ hq, ha _ hq, hb _ hq]
      field_simp; ring
    · have hp2 : p = 2 * (p / 2) + 1 := by omega
      rw [hp2, show s + 1 + 1 = s + 2 from rfl, root_odd s _ hq, neg_sq, gmE_root_sq s _ hq, ha _ hq, hb _ hq]
      field_simp; ring

/-- The values at half of the roots determine the polynomial. -/
theorem determined (s : ℕ) (f g : ℕ → ℝ) (h : ∀ p < 2 ^ s, pev (s + 1) f (root (s + 1) p) = pev (s + 1) g (root (s + 1) p)) : ∀ j < 2 ^ (s + 1), f j = g j := by
  intro j hj
  have e : ∀ p < 2 ^ s, pev (s + 1) (fun j => f j + (-1) * g j) (root (s + 1) p) = 0 := by
    intro p hp
    rw [pev_add, pev_smul, h p hp]; push_cast; ring
  have P := parseval s (fun j => f j + (-1) * g j)
  rw [Finset.sum_eq_zero fun p hp => by rw [e p (Finset.mem_range.1 hp), norm_zero]; ring] at P
  have z : ∑ j ∈ Finset.range (2 ^ (s + 1)), (f j + (-1) * g j) ^ 2 = 0 := by
    rcases mul_eq_zero.1 P.symm with c | c
    · exact absurd c (by positivity)
    · exact c
  have := (Finset.sum_eq_zero_iff_of_nonneg (fun i _ => sq_nonneg _)).1 z j (Finset.mem_range.2 hj)
  have := pow_eq_zero_iff (two_ne_zero) |>.1 this
  linarith

end Verif.CRef.Orth
