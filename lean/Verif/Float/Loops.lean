import Verif.Float.Fft

/-! # The recursions of `fft`, `ifft` and `ffsampling_fft` in floating point -/

namespace Verif.PyFloat

open Verif.FFT (exactRoots exactRoots_law toK evalAt interleaveZ inDict Shaped)

variable {fl : ℝ → ℝ} (hf : Rounds fl)
include hf

/-- Relative error of the transform in degree `2^k`. -/
noncomputable def ce (k : ℕ) : ℝ := (k + 1) * (36 / 10 ^ 16)

omit hf in
theorem ce_le {k : ℕ} (hk : k ≤ 10) : 0 ≤ ce k ∧ ce k ≤ 4 / 10 ^ 14 := by
  have : (k : ℝ) ≤ 10 := by exact_mod_cast hk
  have k0 : (0 : ℝ) ≤ k := Nat.cast_nonneg _
  unfold ce
  constructor
  · positivity
  · norm_num; linarith

theorem merge_ap {k : ℕ} (hk : k < 10) {V0 V1 : List ℂ} {a b : List ℤ} (la : a.length = 2 ^ k) (lb : b.length = 2 ^ k) (M e : ℝ) (hM : 1 ≤ M) (hM2 : M ≤ 2 ^ 100) (he : e ≤ M / 10 ^ 10)
    (ha : Ap k V0 a e) (hb : Ap k V1 b e) (na : ∀ i < 2 ^ k, ‖val k a i‖ ≤ M) (nb : ∀ i < 2 ^ k, ‖val k b i‖ ≤ M) :
    ∃ V, mergeFft fl V0 V1 = .ok V ∧ Ap (k + 1) V (interleaveZ a b) (2 * e + 72 / 10 ^ 16 * M) := by
  have p := pow_succ 2 k
  unfold mergeFft
  dsimp only
  rw [ha.1, show 2 * 2 ^ k = 2 ^ (k + 1) by ring, FFT.inDict_pow (by omega) (by omega), if_pos rfl, if_neg (by rw [hb.1]; omega)]
  refine ⟨_, rfl, by simp, fun j hj => ?_⟩
  rw [get_map 0 _ _ _ hj]
  have hi : j / 2 < 2 ^ k := by omega
  have s := slot_merge hf (V0.getD (j / 2) 0) (V1.getD (j / 2) 0) (root fl (2 ^ (k + 1)) (2 * (j / 2))) _ _ (exactRoots (2 ^ (k + 1)) (2 * (j / 2))) M e hM hM2 he (ha.2 _ hi) (hb.2 _ hi) (na _ hi) (nb _ hi)
    (root_norm (by omega) (by omega) _ (by omega)) (root_close hf (by omega) (by omega) _ (by omega))
  obtain ⟨v1, v2⟩ := val_merge hk la lb (j / 2) hi
  rcases Nat.mod_two_eq_zero_or_one j with h | h
  · rw [if_pos h]
    have ej : 2 * (j / 2) = j := by omega
    rw [ej] at v1
    rw [v1]; simpa only [ej] using s.1
  · rw [if_neg (by omega)]
    have ej : 2 * (j / 2) + 1 = j := by omega
    rw [ej] at v2
    rw [v2]; exact s.2

omit hf in
theorem val_single (x : ℤ) (i : ℕ) : val 0 [x] i = x := by
  unfold val
  have : (toK [x] : List ℂ) = [(x : ℂ)] := rfl
  rw [this, FFT.evalAt_single (exactRoots_law)]

theorem int_ap (x : ℤ) (B : ℝ) (hB : 1 ≤ B) (hB2 : B ≤ 2 ^ 60) (hx : |(x : ℝ)| ≤ B) : Ap 0 [ofInt fl x] [x] (ce 0 * (2 ^ 0 * B)) := by
  refine ⟨rfl, fun i hi => ?_⟩
  have : i = 0 := by rw [pow_zero] at hi; omega
  subst this
  rw [val_single]
  have c := ofInt_close hf x B hx (hB2.trans (by norm_num))
  obtain ⟨h0, h1⟩ := h_small B hB
  obtain ⟨-, u1⟩ := u_mul B (by linarith)
  refine (show ‖ofInt fl x - x‖ ≤ _ from c).trans ?_
  unfold ce
  norm_num at h1 u1 ⊢
  linarith

omit hf in
theorem pow_le {k : ℕ} (hk : k ≤ 10) (B : ℝ) (hB : 1 ≤ B) (hB2 : B ≤ 2 ^ 60) : 1 ≤ 2 ^ k * B ∧ 2 ^ k * B ≤ 2 ^ 100 := by
  have a : (1 : ℝ) ≤ 2 ^ k := one_le_pow₀ (by norm_num)
  have b : (2 : ℝ) ^ k ≤ 2 ^ 10 := pow_le_pow_right₀ (by norm_num) hk
  refine ⟨one_le_mul_of_one_le_of_one_le a hB, (mul_le_mul b hB2 (by linarith) (by positivity)).trans (by norm_num)⟩

/-- One level up. -/
theorem merge_ce {k : ℕ} (hk : k < 10) {V0 V1 : List ℂ} {a b : List ℤ} (la : a.length = 2 ^ k) (lb : b.length = 2 ^ k) (B : ℝ) (hB : 1 ≤ B) (hB2 : B ≤ 2 ^ 60) (ba : ∀ x ∈ a, |(x : ℝ)| ≤ B)
    (bb : ∀ x ∈ b, |(x : ℝ)| ≤ B) (ha : Ap k V0 a (ce k * (2 ^ k * B))) (hb : Ap k V1 b (ce k * (2 ^ k * B))) :
    ∃ V, mergeFft fl V0 V1 = .ok V ∧ Ap (k + 1) V (interleaveZ a b) (ce (k + 1) * (2 ^ (k + 1) * B)) := by
  obtain ⟨m1, m2⟩ := pow_le hk.le B hB hB2
  obtain ⟨c1, c2⟩ := ce_le hk.le
  obtain ⟨V, e, A⟩ := merge_ap hf hk la lb (2 ^ k * B) _ m1 m2 (by
    refine (mul_le_mul_of_nonneg_right c2 (by linarith)).trans ?_
    norm_num; linarith) ha hb (fun i hi => val_le hk.le la B (by linarith) ba i hi) (fun i hi => val_le hk.le lb B (by linarith) bb i hi)
  refine ⟨V, e, A.1, fun i hi => (A.2 i hi).trans (le_of_eq ?_)⟩
  unfold ce
  push_cast
  ring

theorem fft_loop (B : ℝ) (hB : 1 ≤ B) (hB2 : B ≤ 2 ^ 60) : ∀ (k : ℕ), k < 10 → ∀ (fuel : ℕ), k < fuel → ∀ (f : List ℤ), f.length = 2 ^ (k + 1) → (∀ x ∈ f, |(x : ℝ)| ≤ B) →
    ∃ V, fftLoop fl fuel (f.map (ofInt fl)) = .ok V ∧ Ap (k + 1) V f (ce (k + 1) * (2 ^ (k + 1) * B)) := by
  intro k
  induction k with
  | zero =>
    intro _ fuel hfu f hl hb
    obtain ⟨fuel, rfl⟩ : ∃ j, fuel = j + 1 := ⟨fuel - 1, by omega⟩
    obtain ⟨x, y, rfl⟩ : ∃ x y, f = [x, y] := by
      match f, hl with
      | [x, y], _ => exact ⟨x, y, rfl⟩
    have hx := int_ap hf x B hB hB2 (hb x (by simp))
    have hy := int_ap hf y B hB hB2 (hb y (by simp))
    unfold fftLoop
    rw [if_neg (by simp), if_pos (by simp)]
    refine ⟨_, rfl, rfl, fun i hi => ?_⟩
    obtain ⟨m1, m2⟩ := pow_le (show 0 ≤ 10 by omega) B hB hB2
    have s := slot_merge hf (ofInt fl x) (ofInt fl y) ⟨0, 1⟩ _ _ (exactRoots (2 ^ 1) 0) (2 ^ 0 * B) _ m1 m2 (by unfold ce; norm_num; linarith) (hx.2 0 (by norm_num)) (hy.2 0 (by norm_num))
      (val_le (by omega) rfl B (by linarith) (fun z hz => hb z (by simp at hz; simp [hz])) 0 (by norm_num)) (val_le (by omega) rfl B (by linarith) (fun z hz => hb z (by simp at hz; simp [hz])) 0 (by norm_num))
      (root_norm (le_refl _) (by omega) _ (by norm_num)) (by
        rw [show exactRoots (2 ^ 1) 0 = Complex.I from exactRoots_law.base, show (⟨0, 1⟩ : ℂ) = Complex.I from rfl, sub_self, norm_zero]; norm_num)
    obtain ⟨v1, v2⟩ := val_merge (show 0 < 10 by omega) (a := [x]) (b := [y]) rfl rfl 0 (by norm_num)
    have il : interleaveZ [x] [y] = [x, y] := rfl
    rw [il] at v1 v2
    have ee : ce (0 + 1) * (2 ^ (0 + 1) * B) = 2 * (ce 0 * (2 ^ 0 * B)) + 72 / 10 ^ 16 * (2 ^ 0 * B) := by unfold ce; push_cast; ring
    rw [ee]
    have : i = 0 ∨ i = 1 := by rw [zero_add, pow_one] at hi; omega
    rcases this with rfl | rfl
    · have : val (0 + 1) [x, y] 0 = _ := v1
      rw [this]; exact s.1
    · have : val (0 + 1) [x, y] 1 = _ := v2
      rw [this]; exact s.2
  | succ k ih =>
    intro hk fuel hfu f hl hb
    obtain ⟨fuel, rfl⟩ : ∃ j, fuel = j + 1 := ⟨fuel - 1, by omega⟩
    obtain ⟨a, b, la, lb, rfl, ma, mb⟩ := ex_interleave (m := 2 ^ (k + 1)) f (by rw [hl]; ring)
    have p := pow_succ 2 (k + 1)
    have p1 := pow_succ 2 k
    have p0 : 0 < 2 ^ k := by positivity
    obtain ⟨V0, e0, A0⟩ := ih (by omega) fuel (by omega) a la (fun x hx => hb x (ma x hx))
    obtain ⟨V1, e1, A1⟩ := ih (by omega) fuel (by omega) b lb (fun x hx => hb x (mb x hx))
    have sp : split ((interleaveZ a b).map (ofInt fl)) = (a.map (ofInt fl), b.map (ofInt fl)) := by
      have ll : ((interleaveZ a b).map (ofInt fl)).length / 2 = 2 ^ (k + 1) := by rw [List.length_map, hl]; omega
      have gd : ∀ j, j < 2 * 2 ^ (k + 1) → ((interleaveZ a b).map (ofInt fl)).getD j 0 = ofInt fl ((interleaveZ a b).getD j 0) := fun j hj => by
        rw [List.getD_eq_getElem _ _ (by rw [List.length_map, hl]; omega), List.getElem_map, List.getD_eq_getElem _ _ (by rw [hl]; omega)]
      unfold split
      rw [ll]
      congr 1
      · apply List.ext_getElem
        · simp [la]
        · intro i h1 h2
          have hi : i < 2 ^ (k + 1) := by simpa using h1
          rw [List.getElem_map, List.getElem_range, gd _ (by omega), interleave_get _ _ _ (by rw [la]; omega), if_pos (by omega), List.getElem_map, show (2 * i + 0) / 2 = i by omega,
            List.getD_eq_getElem _ _ (by rw [la]; exact hi)]
      · apply List.ext_getElem
        · simp [lb]
        · intro i h1 h2
          have hi : i < 2 ^ (k + 1) := by simpa using h1
          rw [List.getElem_map, List.getElem_range, gd _ (by omega), interleave_get _ _ _ (by rw [la]; omega), if_neg (by omega), List.getElem_map, show (2 * i + 1) / 2 = i by omega,
            List.getD_eq_getElem _ _ (by rw [lb]; exact hi)]
    unfold fftLoop
    rw [if_pos (by rw [List.length_map, hl]; omega), sp]
    dsimp only
    rw [e0]
    dsimp only
    rw [e1]
    dsimp only
    exact merge_ce hf (by omega) la lb B hB hB2 (fun x hx => hb x (ma x hx)) (fun x hx => hb x (mb x hx)) A0 A1

/-- **`fft`** of integers in floating point. -/
theorem fft_ap (B : ℝ) (hB : 1 ≤ B) (hB2 : B ≤ 2 ^ 60) {k : ℕ} (h1 : 1 ≤ k) (h2 : k ≤ 10) (f : List ℤ) (hl : f.length = 2 ^ k) (hb : ∀ x ∈ f, |(x : ℝ)| ≤ B) :
    ∃ V, fft fl f = .ok V ∧ Ap k V f (ce k * (2 ^ k * B)) := by
  obtain ⟨k, rfl⟩ : ∃ j, k = j + 1 := ⟨k - 1, by omega⟩
  have : k + 1 < 2 ^ (k + 1) := Nat.lt_two_pow_self
  exact fft_loop hf B hB hB2 k (by omega) (f.length + 1) (by rw [hl]; omega) f hl hb

/-! ## Inverse -/

theorem ifft_loop (M : ℝ) (hM : 1 ≤ M) (hM2 : M ≤ 2 ^ 100) : ∀ (k : ℕ), k < 10 → ∀ (fuel : ℕ), k < fuel → ∀ (V : List ℂ) (f : List ℤ) (e : ℝ), f.length = 2 ^ (k + 1) → Ap (k + 1) V f e →
    (∀ i < 2 ^ (k + 1), ‖val (k + 1) f i‖ ≤ M) → e + k * (75 / 10 ^ 16 * M) ≤ M / 10 ^ 11 →
    ∃ v, ifftLoop fl fuel V = .ok v ∧ v.length = 2 ^ (k + 1) ∧ ∀ j < 2 ^ (k + 1), |v.getD j 0 - f.getD j 0| ≤ e + k * (75 / 10 ^ 16 * M) := by
  intro k
  induction k with
  | zero =>
    intro _ fuel hfu V f e hl hA hv he
    obtain ⟨fuel, rfl⟩ : ∃ j, fuel = j + 1 := ⟨fuel - 1, by omega⟩
    obtain ⟨x, y, rfl⟩ : ∃ x y, f = [x, y] := by
      match f, hl with
      | [x, y], _ => exact ⟨x, y, rfl⟩
    have lV : V.length = 2 := hA.1
    unfold ifftLoop
    rw [if_neg (by rw [lV]; norm_num), if_pos lV]
    refine ⟨_, rfl, rfl, fun j hj => ?_⟩
    have a0 := hA.2 0 (by norm_num)
    obtain ⟨v1, -⟩ := val_merge (show 0 < 10 by omega) (a := [x]) (b := [y]) rfl rfl 0 (by norm_num)
    rw [show interleaveZ [x] [y] = [x, y] from rfl, val_single, val_single, show exactRoots (2 ^ (0 + 1)) (2 * 0) = Complex.I from exactRoots_law.base] at v1
    have v1 : val (0 + 1) [x, y] 0 = (x : ℂ) + Complex.I * y := v1
    rw [v1] at a0
    have r := (Complex.abs_re_le_norm _).trans a0
    have i := (Complex.abs_im_le_norm _).trans a0
    have : j = 0 ∨ j = 1 := by rw [zero_add, pow_one] at hj; omega
    rcases this with rfl | rfl
    · simpa using r
    · simpa using i
  | succ k ih =>
    intro hk fuel hfu V f e hl hA hv he
    obtain ⟨fuel, rfl⟩ : ∃ j, fuel = j + 1 := ⟨fuel - 1, by omega⟩
    obtain ⟨a, b, la, lb, rfl, ma, mb⟩ := ex_interleave (m := 2 ^ (k + 1)) f (by rw [hl]; ring)
    have p := pow_succ 2 (k + 1)
    have p1 := pow_succ 2 k
    have p0 : 0 < 2 ^ k := by positivity
    have kp : (0 : ℝ) ≤ k * (75 / 10 ^ 16 * M) := by positivity
    have he' : e + 75 / 10 ^ 16 * M + k * (75 / 10 ^ 16 * M) = e + ((k + 1 : ℕ) : ℝ) * (75 / 10 ^ 16 * M) := by push_cast; ring
    have e11 : e ≤ M / 10 ^ 11 := by
      have : 0 ≤ 75 / 10 ^ 16 * M := by positivity
      linarith
    have S := fun i (hi : i < 2 ^ (k + 1)) => slot_split hf (V.getD (2 * i) 0) (V.getD (2 * i + 1) 0) (root fl (2 ^ (k + 1 + 1)) (2 * i)) _ _ (exactRoots (2 ^ (k + 1 + 1)) (2 * i)) M e hM hM2 e11
      (hA.2 (2 * i) (by omega)) (hA.2 (2 * i + 1) (by omega)) (hv _ (by omega)) (hv _ (by omega)) (root_norm (by omega) (by omega) _ (by omega)) (root_close hf (by omega) (by omega) _ (by omega))
    have W := fun i (hi : i < 2 ^ (k + 1)) => val_split hk la lb i hi
    have A0 : Ap (k + 1) ((List.range (2 ^ (k + 1))).map fun i => cmul fl ⟨1 / 2, 0⟩ (cadd fl (V.getD (2 * i) 0) (V.getD (2 * i + 1) 0))) a (e + 75 / 10 ^ 16 * M) := by
      refine ⟨by simp, fun i hi => ?_⟩
      rw [get_map 0 _ _ _ hi, (W i hi).1]; exact (S i hi).1
    have A1 : Ap (k + 1) ((List.range (2 ^ (k + 1))).map fun i => cmul fl (cmul fl ⟨1 / 2, 0⟩ (csub fl (V.getD (2 * i) 0) (V.getD (2 * i + 1) 0))) (star (root fl (2 ^ (k + 1 + 1)) (2 * i)))) b (e + 75 / 10 ^ 16 * M) := by
      refine ⟨by simp, fun i hi => ?_⟩
      rw [get_map 0 _ _ _ hi, (W i hi).2]; exact (S i hi).2
    have va : ∀ i < 2 ^ (k + 1), ‖val (k + 1) a i‖ ≤ M := fun i hi => by
      rw [(W i hi).1, norm_div]
      have := norm_add_le (val (k + 1 + 1) (interleaveZ a b) (2 * i)) (val (k + 1 + 1) (interleaveZ a b) (2 * i + 1))
      have x := hv (2 * i) (by omega)
      have y := hv (2 * i + 1) (by omega)
      norm_num; linarith
    have vb : ∀ i < 2 ^ (k + 1), ‖val (k + 1) b i‖ ≤ M := fun i hi => by
      rw [(W i hi).2, norm_mul, norm_div, norm_star, root_norm (by omega) (by omega) _ (by omega), mul_one]
      have := norm_sub_le (val (k + 1 + 1) (interleaveZ a b) (2 * i)) (val (k + 1 + 1) (interleaveZ a b) (2 * i + 1))
      have x := hv (2 * i) (by omega)
      have y := hv (2 * i + 1) (by omega)
      norm_num; linarith
    obtain ⟨v0, e0, l0, b0⟩ := ih (by omega) fuel (by omega) _ a _ la A0 va (by rw [he']; exact he)
    obtain ⟨v1, e1, l1, b1⟩ := ih (by omega) fuel (by omega) _ b _ lb A1 vb (by rw [he']; exact he)
    unfold ifftLoop
    rw [if_pos (by rw [hA.1]; omega)]
    unfold splitFft
    dsimp only
    rw [hA.1, FFT.inDict_pow (by omega) (by omega), if_pos rfl, show 2 ^ (k + 1 + 1) / 2 = 2 ^ (k + 1) by omega]
    dsimp only
    rw [e0]
    dsimp only
    rw [e1]
    dsimp only
    unfold merge
    rw [if_neg (by omega)]
    refine ⟨_, rfl, by simp [l0, p, mul_comm], fun j hj => ?_⟩
    rw [get_map 0 _ _ _ (by rw [l0]; omega), interleave_get _ _ _ (by rw [la]; omega), ← he']
    split
    · exact b0 _ (by omega)
    · exact b1 _ (by omega)

end Verif.PyFloat
