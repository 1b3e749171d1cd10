import Verif.CRef.TreeTop

/-! # The two nodes below the root: means and mean inverses from the norms of the key -/

namespace Verif.CRef.Fft

open Verif.CRef.Kg Verif.CRef Verif.CRef.Fpr Verif.CRef.Orth Verif.CRef.SignDyn Verif.Falcon

theorem normSq_sum (f : List ℤ) : ((normSq f : ℤ) : ℝ) = ∑ j ∈ Finset.range f.length, (f.getD j 0 : ℝ) ^ 2 := by
  induction f with
  | nil => simp [normSq]
  | cons a f ih =>
    rw [List.length_cons, Finset.sum_range_succ']
    simp only [List.getD_cons_succ, List.getD_cons_zero]
    rw [← ih]
    unfold normSq
    rw [List.map_cons, List.sum_cons]
    push_cast
    ring

/-- The mean of `f f* + g g*` over the roots is the squared norm of the key. -/
theorem gram_mean (s : ℕ) (f g : List ℤ) (lf : f.length = 2 ^ (s + 1)) (lg : g.length = 2 ^ (s + 1)) (h : normSq f + normSq g ≤ 16822) :
    ∑ p ∈ Finset.range (2 ^ s), gramAt (s + 1) f g (root (s + 1) p) ≤ 2 ^ s * 16822 := by
  unfold gramAt value
  rw [Finset.sum_add_distrib, parseval, parseval, ← mul_add]
  refine mul_le_mul_of_nonneg_left ?_ (by positivity)
  have a := normSq_sum f
  have b := normSq_sum g
  rw [lf] at a
  rw [lg] at b
  rw [← a, ← b]
  exact_mod_cast h

/-- The nodes of a key. -/
theorem key_nodes (s : ℕ) (hs : s ≤ 9) (f g F G : List ℤ) (hn : IsNtru (2 ^ (s + 1)) f g F G) (hf : Within (2 ^ (maxFgBits[s + 1]! - 1) - 1) f) (hg : Within (2 ^ (maxFgBits[s + 1]! - 1) - 1) g)
    (hF : Within 127 F) (hG : Within 127 G) (hN : normSq f + normSq g ≤ 16822) (r1 r2 : ℕ → ℝ) (hr : IsOrth (s + 1) f g r1 r2) (hK : sqNorm (s + 1) r1 r2 ≤ 16818) (gr : List W × List W × List W)
    (hgr : gr = gram (basis f g F G (s + 1)) (s + 1)) :
    Node s gr.1 (174 / 10) (87 * 10 ^ 5) 0 ((1 + 1 / 2 ^ 28) * 16822) ((1 + 1 / 2 ^ 28) * (16818 / 12289 ^ 2)) ∧
    Node s (polyLdlFft gr.1 gr.2.1 gr.2.2 (s + 1)).2 (174 / 10) (87 * 10 ^ 5) (1 / 2 ^ 12) ((1 + 1 / 2 ^ 24) * 16818 + 1 / 2 ^ 12) ((1 + 15 / 10 ^ 6) * (16822 / 12289 ^ 2)) := by
  have p9 : (2 : ℝ) ^ s ≤ 2 ^ 9 := pow_le_pow_right₀ (by norm_num) hs
  have p0 : (0 : ℝ) < 2 ^ s := by positivity
  obtain ⟨γ, hγ⟩ : ∃ γ : ℕ → ℝ, (fun p => gramAt (s + 1) f g (root (s + 1) p)) = γ := ⟨_, rfl⟩
  have eγ : ∀ p, gramAt (s + 1) f g (root (s + 1) p) = γ p := fun p => by rw [← hγ]
  have pos : ∀ p < 2 ^ s, 0 < γ p := fun p _ => by rw [← eγ]; exact lt_of_le_of_ne (gram_nonneg _ _ _ _) (Ne.symm (hr _ (root_pow _ _)).1)
  have T : total s γ ≤ 16818 := by rw [← hγ, ← sqNorm_eq s f g r1 r2 hr]; exact hK
  have M := gram_mean s f g hn.1 hn.2.1 hN
  simp only [eγ] at M
  have T0 : 0 ≤ total s γ := by unfold total; exact mul_nonneg (by positivity) (Finset.sum_nonneg fun p hp => (one_div_pos.2 (pos p (Finset.mem_range.1 hp))).le)
  have y2 : ∀ p < 2 ^ s, 12289 ^ 2 / γ p ≤ 512 * 16818 := fun p hp => (total_ge s γ pos p hp).trans ((mul_le_mul p9 T T0 (by positivity)).trans (by norm_num))
  have γ2 : ∀ p < 2 ^ s, γ p ≤ 512 * 16822 := fun p hp => by
    have := Finset.single_le_sum (f := γ) (fun i hi => (pos i (Finset.mem_range.1 hi)).le) (Finset.mem_range.2 hp)
    refine this.trans (M.trans ?_)
    norm_num at *; linarith
  have γ1 : ∀ p < 2 ^ s, 1753 / 100 ≤ γ p := fun p hp => by
    have := y2 p hp
    rw [div_le_iff₀ (pos p hp)] at this
    norm_num at *; linarith
  have y1 : ∀ p < 2 ^ s, 1753 / 100 ≤ 12289 ^ 2 / γ p := fun p hp => by
    rw [le_div_iff₀ (pos p hp)]
    have := γ2 p hp
    norm_num at *; linarith
  have S : ∀ p < 2 ^ s, _ := fun p hp => key_slot s hs f g F G hn hf hg hF hG p hp (γ p) (eγ p) (by have := γ1 p hp; norm_num at *; linarith) (by have := γ2 p hp; norm_num at *; linarith) gr hgr
  generalize (polyLdlFft gr.1 gr.2.1 gr.2.2 (s + 1)).2 = D at *
  have Tq : ∑ p ∈ Finset.range (2 ^ s), 1 / γ p ≤ 2 ^ s * (16818 / 12289 ^ 2) := by
    unfold total at T
    rw [div_mul_eq_mul_div, div_le_iff₀ p0] at T
    norm_num at *; linarith
  have Tq' : ∑ p ∈ Finset.range (2 ^ s), 12289 ^ 2 / γ p ≤ 2 ^ s * 16818 := by
    have e : ∑ p ∈ Finset.range (2 ^ s), 12289 ^ 2 / γ p = 12289 ^ 2 * ∑ p ∈ Finset.range (2 ^ s), 1 / γ p := by
      rw [Finset.mul_sum]; exact Finset.sum_congr rfl fun p _ => by ring
    rw [e]; norm_num at *; linarith
  constructor
  · have lo : ∀ p < 2 ^ s, 174 / 10 ≤ val (slot gr.1 (2 ^ s) p).1 := fun p hp => by
      have := (S p hp).2.2.1; have := γ1 p hp; norm_num at *; linarith
    refine ⟨fun p hp => (S p hp).1, lo, fun p hp => ?_, fun p hp => ?_, ?_, ?_⟩
    · have := (S p hp).2.1; have := γ2 p hp; norm_num at *; linarith
    · rw [(S p hp).2.2.2.1, abs_zero]
    · refine (Finset.sum_le_sum fun p hp => (S p (Finset.mem_range.1 hp)).2.1).trans ?_
      rw [← Finset.mul_sum, show (2 : ℝ) ^ s * ((1 + 1 / 2 ^ 28) * 16822) = (1 + 1 / 2 ^ 28) * (2 ^ s * 16822) by ring]
      exact mul_le_mul_of_nonneg_left M (by norm_num)
    · have b : ∀ p ∈ Finset.range (2 ^ s), 1 / val (slot gr.1 (2 ^ s) p).1 ≤ (1 + 1 / 2 ^ 28) * (1 / γ p) := fun p hp => by
        have hp := Finset.mem_range.1 hp
        have l := lo p hp
        have h := (S p hp).2.2.1
        have := pos p hp
        rw [mul_one_div, div_le_div_iff₀ (by linarith) this, one_mul]
        exact h
      refine (Finset.sum_le_sum b).trans ?_
      rw [← Finset.mul_sum, mul_left_comm]
      exact mul_le_mul_of_nonneg_left Tq (by norm_num)
  · have bd : ∀ p < 2 ^ s, val (slot D (2 ^ s) p).1 ≤ (1 + 1 / 2 ^ 24) * (12289 ^ 2 / γ p) + 1 / 2 ^ 12 ∧ 12289 ^ 2 / γ p ≤ (1 + 15 / 10 ^ 6) * val (slot D (2 ^ s) p).1 := fun p hp => by
      have := abs_le.1 (S p hp).2.2.2.2.2.1
      have := y1 p hp
      generalize (12289 : ℝ) ^ 2 / γ p = y at *
      norm_num at *
      constructor <;> linarith
    have lo : ∀ p < 2 ^ s, 174 / 10 ≤ val (slot D (2 ^ s) p).1 := fun p hp => by
      have := (bd p hp).2; have := y1 p hp; norm_num at *; linarith
    refine ⟨fun p hp => (S p hp).2.2.2.2.1, lo, fun p hp => ?_, fun p hp => (S p hp).2.2.2.2.2.2, ?_, ?_⟩
    · have := (bd p hp).1; have := y2 p hp; norm_num at *; linarith
    · refine (Finset.sum_le_sum fun p hp => (bd p (Finset.mem_range.1 hp)).1).trans ?_
      rw [Finset.sum_add_distrib, ← Finset.mul_sum, Finset.sum_const, Finset.card_range, nsmul_eq_mul]
      have := mul_le_mul_of_nonneg_left Tq' (show (0 : ℝ) ≤ 1 + 1 / 2 ^ 24 by norm_num)
      push_cast
      norm_num at *; linarith
    · have b : ∀ p ∈ Finset.range (2 ^ s), 1 / val (slot D (2 ^ s) p).1 ≤ (1 + 15 / 10 ^ 6) / 12289 ^ 2 * γ p := fun p hp => by
        have hp := Finset.mem_range.1 hp
        have l := lo p hp
        have h := (bd p hp).2
        have := pos p hp
        rw [div_le_iff₀ this] at h
        rw [div_le_iff₀ (by linarith)]
        norm_num at *; linarith
      refine (Finset.sum_le_sum b).trans ?_
      rw [← Finset.mul_sum]
      have := mul_le_mul_of_nonneg_left M (show (0 : ℝ) ≤ (1 + 15 / 10 ^ 6) / 12289 ^ 2 by norm_num)
      norm_num at *; linarith

end Verif.CRef.Fft
