import Verif.FFT.Core

/-! On which lengths `fft` succeeds, and what it returns there. -/

namespace Verif.FFT

set_option linter.unusedSectionVars false

variable {K : Type} [Field K] [StarRing K] [DecidableEq K] {R : Nat → Nat → K} {I : K}

theorem getD_take {f : List K} {n i : Nat} (h : i < n) : (f.take n).getD i 0 = f.getD i 0 := by
  simp [List.getD_eq_getElem?_getD, List.getElem?_take, h]

theorem vec_take {n m : Nat} (h : m ≤ n) (φ : Nat → K) : (vec n φ).take m = vec m φ := by
  unfold vec
  rw [← List.map_take, List.take_range, Nat.min_eq_left h]

/-- Splitting a truncated list truncates the halves. -/
theorem split_take {f : List K} {m : Nat} (h : 2 * m ≤ f.length) : split (f.take (2 * m)) = ((split f).1.take m, (split f).2.take m) := by
  have l : (f.take (2 * m)).length = 2 * m := by simp; omega
  rw [split_eq l]
  unfold split
  have e1 := vec_take (show m ≤ f.length / 2 by omega) (fun i => f.getD (2 * i + 0) 0)
  have e2 := vec_take (show m ≤ f.length / 2 by omega) (fun i => f.getD (2 * i + 1) 0)
  unfold vec at e1 e2
  dsimp only
  rw [e1, e2]
  congr 1
  · apply vec_congr; intro i hi; exact getD_take (by omega)
  · apply vec_congr; intro i hi; exact getD_take (by omega)

theorem fftLoop_take (hR : RootLaw R I) {k : Nat} (h1 : 1 ≤ k) (h2 : k ≤ 10) : ∀ (fuel : Nat) (f : List K), 2 ^ k ≤ f.length → 2 * f.length < 3 * 2 ^ k → k ≤ fuel →
    fftLoop R I fuel f = .ok (vec (2 ^ k) fun i => evalAt (R (2 ^ k) i) (f.take (2 ^ k))) := by
  induction k, h1 using Nat.le_induction with
  | base =>
    intro fuel f l1 l2 hf
    have h : f.length = 2 ^ 1 := by omega
    rw [fftLoop_eq hR (by omega) h2 fuel f h hf, List.take_of_length_le (by omega)]
  | succ k h1 ih =>
    intro fuel f l1 l2 hf
    obtain ⟨fuel, rfl⟩ : ∃ j, fuel = j + 1 := ⟨fuel - 1, by omega⟩
    have e := pow_succ 2 k
    have hk : 2 ≤ 2 ^ k := by
      calc 2 = 2 ^ 1 := rfl
        _ ≤ 2 ^ k := Nat.pow_le_pow_right (by omega) h1
    have ls : (split f).1.length = f.length / 2 ∧ (split f).2.length = f.length / 2 := by simp [split]
    have st := split_take (f := f) (m := 2 ^ k) (by omega)
    rw [show 2 * 2 ^ k = 2 ^ (k + 1) by omega] at st
    rw [← fftLoop_eq hR (by omega) h2 (fuel + 1) (f.take (2 ^ (k + 1))) (by simp; omega) hf]
    unfold fftLoop
    rw [if_pos (by omega), if_pos (by simp; omega), st]
    dsimp only
    rw [ih (by omega) fuel (split f).1 (by omega) (by omega) (by omega), ih (by omega) fuel (split f).2 (by omega) (by omega) (by omega),
      fftLoop_eq hR (by omega) (by omega) fuel ((split f).1.take (2 ^ k)) (by rw [List.length_take]; omega) (by omega),
      fftLoop_eq hR (by omega) (by omega) fuel ((split f).2.take (2 ^ k)) (by rw [List.length_take]; omega) (by omega)]

/-- Whatever the tables: if `fft` succeeds, the length is between `2^k` and `3/2 · 2^k` for some table size `2^k`. -/
theorem fftLoop_ok (R : Nat → Nat → K) (I : K) : ∀ (fuel : Nat) (f r : List K), fftLoop R I fuel f = .ok r →
    ∃ k, 1 ≤ k ∧ k ≤ 10 ∧ 2 ^ k ≤ f.length ∧ 2 * f.length < 3 * 2 ^ k ∧ r.length = 2 ^ k := by
  intro fuel
  induction fuel with
  | zero => intro f r h; cases h
  | succ fuel ih =>
    intro f r h
    unfold fftLoop at h
    by_cases hl : 2 < f.length
    · rw [if_pos hl] at h
      rcases ha : fftLoop R I fuel (split f).1 with e | a
      · rw [ha] at h; cases h
      rw [ha] at h
      dsimp only at h
      rcases hb : fftLoop R I fuel (split f).2 with e | b
      · rw [hb] at h; cases h
      rw [hb] at h
      dsimp only at h
      obtain ⟨k, k1, k2, l1, l2, l3⟩ := ih _ _ ha
      unfold mergeFft at h
      dsimp only at h
      by_cases hd : inDict (2 * a.length) = true
      · rw [if_pos hd] at h
        by_cases hx : b.length < a.length
        · rw [if_pos hx] at h; cases h
        rw [if_neg hx] at h
        injection h with h
        obtain ⟨k', m1, m2, m3⟩ := (inDict_iff _).1 hd
        have e := pow_succ 2 k
        have : k' = k + 1 := by
          apply Nat.pow_right_injective (le_refl 2)
          show 2 ^ k' = 2 ^ (k + 1)
          omega
        subst this
        have ls : (split f).1.length = f.length / 2 := by simp [split]
        have he : ∃ j, 2 ^ k = 2 * j := ⟨2 ^ (k - 1), by rw [← pow_succ']; congr 1; omega⟩
        obtain ⟨j, hj⟩ := he
        refine ⟨k + 1, by omega, m2, by omega, by omega, ?_⟩
        rw [← h]; simp; omega
      · rw [if_neg hd] at h; cases h
    · rw [if_neg hl] at h
      by_cases h2 : f.length = 2
      · rw [if_pos h2] at h
        injection h with h
        exact ⟨1, by omega, by omega, by omega, by omega, by rw [← h]; rfl⟩
      · rw [if_neg h2] at h; cases h

end Verif.FFT
