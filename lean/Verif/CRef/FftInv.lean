import Verif.CRef.FftFwd

/-! # The inverse transform -/

namespace Verif.CRef.Fft

open Verif.CRef.Fpr

/-! ## Recursive form -/

/-- One stage on slots. -/
def istg (h m : ℕ) (F : ℕ → C) (p : ℕ) : C :=
  if p % (2 * h) < h then cAdd (F p) (F (p + h)) else cMul (cSub (F (p - h)) (F p)) (gmConj (m / 2 + p / (2 * h)))

def iloopF : ℕ → ℕ → ℕ → (ℕ → C) → ℕ → C
  | 0, _, _, F => F
  | s + 1, h, m, F => iloopF s (2 * h) (m / 2) (istg h m F)

/-- The recursive inverse transform on `2^s` complex slots, without the final division. -/
def rifft : ℕ → (ℕ → C) → ℕ → C
  | 0, F => F
  | s + 1, F => fun p =>
    if p % 2 = 0 then rifft s (fun j => cAdd (F (2 * j)) (F (2 * j + 1))) (p / 2)
    else rifft s (fun j => cMul (cSub (F (2 * j)) (F (2 * j + 1))) (gmConj (2 ^ (s + 1) + j))) (p / 2)

theorem ifftStage_slot (hn h m N : ℕ) (hm : N * (2 * h) = hn) (hh : 0 < h) (f : List W) (hf : f.length = 2 * hn) :
    (ifftStage hn h m f).length = 2 * hn ∧ ∀ p < hn, slot (ifftStage hn h m f) hn p = istg h m (slot f hn) p := by
  have key := two_loops hn h N (by omega) (fun i x y => cAdd x y) (fun i x y => cMul (cSub x y) (gmConj (m / 2 + i))) (fun i f j => ifftButterfly hn h (gmConj (m / 2 + i)) f j) (fun i f j => rfl) f hf
  have e : hn / (2 * h) = N := by rw [← hm, Nat.mul_div_cancel _ (by omega)]
  unfold ifftStage
  rw [e]
  refine ⟨key.1, fun p hp => ?_⟩
  have hd := Nat.div_add_mod p (2 * h)
  have hlt := Nat.mod_lt p (show 0 < 2 * h by omega)
  have hi : p / (2 * h) < N := by rw [Nat.div_lt_iff_lt_mul (by omega)]; omega
  unfold istg
  rw [mul_comm] at hd
  by_cases c : p % (2 * h) < h
  · rw [if_pos c]
    have := (key.2 _ hi _ c).1
    rw [hd] at this
    exact this
  · rw [if_neg c]
    have := (key.2 _ hi (p % (2 * h) - h) (by omega)).2
    rw [show p / (2 * h) * (2 * h) + (p % (2 * h) - h) + h = p by omega, show p / (2 * h) * (2 * h) + (p % (2 * h) - h) = p - h by omega] at this
    exact this

theorem istg_congr (hn h m N : ℕ) (hm : N * (2 * h) = hn) (hh : 0 < h) (F G : ℕ → C) (H : ∀ p < hn, F p = G p) : ∀ p < hn, istg h m F p = istg h m G p := by
  intro p hp
  have hd := Nat.div_add_mod p (2 * h)
  have hlt := Nat.mod_lt p (show 0 < 2 * h by omega)
  have hi : p / (2 * h) < N := by rw [Nat.div_lt_iff_lt_mul (by omega)]; omega
  have : (p / (2 * h) + 1) * (2 * h) ≤ N * (2 * h) := Nat.mul_le_mul_right _ hi
  rw [add_mul, one_mul, mul_comm] at this
  unfold istg
  split
  · rw [H p hp, H (p + h) (by omega)]
  · rw [H p hp, H (p - h) (by omega)]

theorem iloopF_congr (hn : ℕ) : ∀ (s h m : ℕ) (F G : ℕ → C), 0 < h → h * 2 ^ s = hn → (∀ p < hn, F p = G p) → ∀ p < hn, iloopF s h m F p = iloopF s h m G p
  | 0, _, _, _, _, _, _, H => H
  | s + 1, h, m, F, G, h0, hm, H => by
    refine iloopF_congr hn s (2 * h) (m / 2) _ _ (by omega) (by rw [← hm, pow_succ]; ring) (istg_congr hn h m (2 ^ s) (by rw [← hm, pow_succ]; ring) h0 F G H)

theorem ifftLoop_slot (hn : ℕ) : ∀ (s h m : ℕ) (f : List W), 0 < h → h * 2 ^ s = hn → f.length = 2 * hn →
    (ifftLoop hn s h m f).length = 2 * hn ∧ ∀ p < hn, slot (ifftLoop hn s h m f) hn p = iloopF s h m (slot f hn) p
  | 0, _, _, f, _, _, hf => ⟨hf, fun _ _ => rfl⟩
  | s + 1, h, m, f, h0, hm, hf => by
    obtain ⟨l1, s1⟩ := ifftStage_slot hn h m (2 ^ s) (by rw [← hm, pow_succ]; ring) h0 f hf
    have hm2 : 2 * h * 2 ^ s = hn := by rw [← hm, pow_succ]; ring
    obtain ⟨l2, s2⟩ := ifftLoop_slot hn s (2 * h) (m / 2) (ifftStage hn h m f) (by omega) hm2 l1
    unfold ifftLoop iloopF
    refine ⟨l2, fun p hp => ?_⟩
    rw [s2 p hp]
    exact iloopF_congr hn s (2 * h) (m / 2) _ _ (by omega) hm2 s1 p hp

theorem istg_even_odd (h m : ℕ) (hh : 0 < h) (F : ℕ → C) (b : ℕ) (hb : b < 2) : (fun p => istg (2 * h) m F (2 * p + b)) = istg h m (fun p => F (2 * p + b)) := by
  funext p
  have e1 : (2 * p + b) / (2 * (2 * h)) = p / (2 * h) := by
    rw [← Nat.div_div_eq_div_mul, show (2 * p + b) / 2 = p by omega]
  have e2 : (2 * p + b) % (2 * (2 * h)) = 2 * (p % (2 * h)) + b := by
    rw [Nat.mod_mul, show (2 * p + b) % 2 = b by omega, show (2 * p + b) / 2 = p by omega]; ring
  unfold istg
  rw [e1, e2]
  by_cases c : p % (2 * h) < h
  · rw [if_pos c, if_pos (by omega), show 2 * p + b + 2 * h = 2 * (p + h) + b by ring]
  · have : p % (2 * h) ≤ p := Nat.mod_le _ _
    rw [if_neg c, if_neg (by omega), show 2 * p + b - 2 * h = 2 * (p - h) + b by omega]

theorem iloopF_even_odd : ∀ (s h m : ℕ) (F : ℕ → C) (b p : ℕ), b < 2 → 0 < h → iloopF s (2 * h) m F (2 * p + b) = iloopF s h m (fun j => F (2 * j + b)) p
  | 0, _, _, _, _, _, _, _ => rfl
  | s + 1, h, m, F, b, p, hb, hh => by
    unfold iloopF
    rw [iloopF_even_odd s (2 * h) (m / 2) _ b p hb (by omega), istg_even_odd h m hh F b hb]

theorem iloopF_rifft : ∀ (s : ℕ) (F : ℕ → C), iloopF s 1 (2 ^ (s + 1)) F = rifft s F
  | 0, F => rfl
  | s + 1, F => by
    funext p
    obtain ⟨q, b, hb, rfl⟩ : ∃ q b, b < 2 ∧ p = 2 * q + b := ⟨p / 2, p % 2, Nat.mod_lt _ (by norm_num), by omega⟩
    have e : 2 ^ (s + 1 + 1) / 2 = 2 ^ (s + 1) := by rw [pow_succ]; omega
    unfold iloopF rifft
    rw [iloopF_even_odd s 1 _ _ b q hb (by norm_num), e, iloopF_rifft s]
    interval_cases b
    · rw [if_pos (by omega), show (2 * q + 0) / 2 = q by omega]
      congr 1
      funext j
      unfold istg; rw [if_pos (by omega)]; rfl
    · rw [if_neg (by omega), show (2 * q + 1) / 2 = q by omega]
      congr 1
      funext j
      unfold istg; rw [if_neg (by omega), e, show (2 * j + 1) / (2 * 1) = j by omega, Nat.add_sub_cancel]

/-! ## Errors -/

theorem gmConj_close (l : ℕ) (hl : l ≤ 9) (u : ℕ) (hu : u < 2 ^ l) : ‖cv (gmConj (2 ^ l + u)) - (starRingEnd ℂ) (gmE l u)‖ ≤ 4 * uu := by
  have h := (gm_close l hl u hu).2
  have e : cv (gmConj (2 ^ l + u)) = (starRingEnd ℂ) (cv (gm (2 ^ l + u))) := by
    unfold cv gmConj; apply Complex.ext
    · rfl
    · show val (neg _) = _; rw [(C99_neg _).1]; rfl
  rw [e, ← map_sub, Complex.norm_conj]; exact h

theorem split_close (x' y' g : C) (x y w : ℂ) (e M : ℝ) (gx : Good x') (gy : Good y') (hx : ‖cv x' - x‖ ≤ e) (hy : ‖cv y' - y‖ ≤ e) (hg : ‖cv g - w‖ ≤ 4 * uu) (hw : ‖w‖ = 1)
    (mx : ‖x‖ ≤ M) (my : ‖y‖ ≤ M) (he : e ≤ M / 2 ^ 20) (hM : eta ≤ uu * M / 2 ^ 10) (hM2 : M * 4 ≤ big) :
    (Good (cAdd x' y') ∧ ‖cv (cAdd x' y') - (x + y)‖ ≤ 2 * e + 28 * (uu * M)) ∧
    (Good (cMul (cSub x' y') g) ∧ ‖cv (cMul (cSub x' y') g) - (x - y) * w‖ ≤ 2 * e + 28 * (uu * M)) := by
  have u0 := uu_pos
  have u1 : uu ≤ 1 / 2 ^ 53 := le_refl _
  have M0 : 0 ≤ M := (norm_nonneg _).trans mx
  have e0 : 0 ≤ e := (norm_nonneg _).trans hx
  have tx : ‖cv x'‖ ≤ M + e := by
    have := norm_add_le (cv x' - x) x; rw [sub_add_cancel] at this; linarith
  have ty : ‖cv y'‖ ≤ M + e := by
    have := norm_add_le (cv y' - y) y; rw [sub_add_cancel] at this; linarith
  have t2 : ‖cv g‖ ≤ 1 + 4 * uu := by
    have := norm_add_le (cv g - w) w; rw [sub_add_cancel, hw] at this; linarith
  have uM : 0 ≤ uu * M := mul_nonneg u0.le M0
  have he' : e ≤ M / 1000 := by norm_num at he; linarith
  have u2 : uu * M ≤ M / 1000 := by
    have := mul_le_mul_of_nonneg_right u1 M0; norm_num at this; linarith
  have fin : ∀ z : ℂ, ‖z‖ ≤ M * (2 + 1 / 10) → uu * (2 * ‖z‖) + 2 * eta ≤ 5 * (uu * M) := by
    intro z hz
    have := mul_le_mul_of_nonneg_left hz u0.le
    norm_num at hM
    linarith
  constructor
  · obtain ⟨g1, c1⟩ := cAdd_close x' y' gx gy (by linarith) (by linarith)
    refine ⟨g1, ?_⟩
    have h1 := norm_add_le (cv (cAdd x' y') - (cv x' + cv y')) ((cv x' - x) + (cv y' - y))
    rw [show cv (cAdd x' y') - (cv x' + cv y') + ((cv x' - x) + (cv y' - y)) = cv (cAdd x' y') - (x + y) by ring] at h1
    have h2 := norm_add_le (cv x' - x) (cv y' - y)
    have h3 := fin (cv x' + cv y') ((norm_add_le _ _).trans (by linarith))
    linarith
  · obtain ⟨g1, c1⟩ := cSub_close x' y' gx gy (by linarith) (by linarith)
    have h1 := norm_add_le (cv (cSub x' y') - (cv x' - cv y')) ((cv x' - x) - (cv y' - y))
    rw [show cv (cSub x' y') - (cv x' - cv y') + ((cv x' - x) - (cv y' - y)) = cv (cSub x' y') - (x - y) by ring] at h1
    have h2 := norm_sub_le (cv x' - x) (cv y' - y)
    have h3 := fin (cv x' - cv y') ((norm_sub_le _ _).trans (by linarith))
    have dc : ‖cv (cSub x' y') - (x - y)‖ ≤ 2 * e + 5 * (uu * M) := by linarith
    have dn : ‖x - y‖ ≤ 2 * M := (norm_sub_le _ _).trans (by linarith)
    have dn' : ‖cv (cSub x' y')‖ ≤ 2 * M + (2 * e + 5 * (uu * M)) := by
      have := norm_add_le (cv (cSub x' y') - (x - y)) (x - y); rw [sub_add_cancel] at this; linarith
    have t3 : ‖cv (cSub x' y')‖ * ‖cv g‖ ≤ M * (2 + 1 / 10) := by
      have := mul_le_mul dn' t2 (norm_nonneg _) (by linarith)
      refine this.trans ?_
      have h1 : 2 * M + (2 * e + 5 * (uu * M)) ≤ M * (2 + 1 / 100) := by linarith
      have h2 : 1 + 4 * uu ≤ 1 + 1 / 1000 := by norm_num at u1; linarith
      have := mul_le_mul h1 h2 (by linarith) (by linarith)
      linarith
    obtain ⟨gp, cp⟩ := cMul_close (cSub x' y') g (by linarith)
    refine ⟨gp, ?_⟩
    have h1 : cv (cMul (cSub x' y') g) - (x - y) * w = (cv (cMul (cSub x' y') g) - cv (cSub x' y') * cv g) + ((cv (cSub x' y') - (x - y)) * cv g + (x - y) * (cv g - w)) := by ring
    have h2 := norm_add_le (cv (cMul (cSub x' y') g) - cv (cSub x' y') * cv g) ((cv (cSub x' y') - (x - y)) * cv g + (x - y) * (cv g - w))
    have h3 := norm_add_le ((cv (cSub x' y') - (x - y)) * cv g) ((x - y) * (cv g - w))
    rw [norm_mul, norm_mul] at h3
    have h4 := mul_le_mul dc t2 (norm_nonneg _) (by linarith)
    have h5 := mul_le_mul dn hg (norm_nonneg _) (by linarith)
    have h6 := mul_le_mul_of_nonneg_left t3 u0.le
    have h7 : (2 * e + 5 * (uu * M)) * (4 * uu) ≤ M / 10 * (4 * uu) := mul_le_mul_of_nonneg_right (by linarith) (by linarith)
    rw [← h1] at h2
    norm_num at hM
    linarith

theorem pev_smul (k : ℕ) (c : ℝ) (f : ℕ → ℝ) (w : ℂ) : pev k (fun j => c * f j) w = c * pev k f w := by
  unfold pev; rw [Finset.mul_sum]; refine Finset.sum_congr rfl fun j _ => ?_; push_cast; ring

/-- The inverse transform of approximate values. -/
theorem rifft_approx : ∀ (s : ℕ), s ≤ 9 → ∀ (F : ℕ → C) (f : ℕ → ℝ) (e M : ℝ), Approx s F f e → (∀ p < 2 ^ s, ‖pev (s + 1) f (root (s + 1) p)‖ ≤ M) →
    e + s * (14 * (uu * M)) ≤ M / 2 ^ 20 → eta ≤ uu * M / 2 ^ 10 → M * 2 ^ s * 4 ≤ big →
    ∀ p < 2 ^ s, Good (rifft s F p) ∧ ‖cv (rifft s F p) - 2 ^ s * (⟨f p, f (p + 2 ^ s)⟩ : ℂ)‖ ≤ 2 ^ s * (e + s * (14 * (uu * M))) ∧ ‖(⟨f p, f (p + 2 ^ s)⟩ : ℂ)‖ ≤ M := by
  intro s
  induction s with
  | zero =>
    intro _ F f e M hF hM he _ _ p hp
    have : p = 0 := by simpa using hp
    subst this
    obtain ⟨g, c⟩ := hF 0 (by norm_num)
    have ev : pev 1 f (root 1 0) = (⟨f 0, f (0 + 2 ^ 0)⟩ : ℂ) := by
      unfold pev root
      rw [show bitrev (1 - 1) 0 = 0 from rfl, show ((4 * 0 + 1 : ℕ) * Real.pi * Complex.I / 2 ^ 1 : ℂ) = Real.pi / 2 * Complex.I by push_cast; ring, Complex.exp_pi_div_two_mul_I]
      rw [show 2 ^ 1 = 1 + 1 from rfl, Finset.sum_range_succ, Finset.sum_range_succ]
      apply Complex.ext <;> simp
    have m := hM 0 (by norm_num)
    rw [zero_add] at c m
    rw [ev] at c m
    refine ⟨g, ?_, m⟩
    simpa [rifft] using c
  | succ s ih =>
    intro hs F f e M hF hM he hM1 hM2 p hp
    have M0 : 0 ≤ M := (norm_nonneg _).trans (hM 0 (by positivity))
    have e0 : 0 ≤ e := (norm_nonneg _).trans (hF 0 (by positivity)).2
    have u0 := uu_pos
    have uM : 0 ≤ uu * M := mul_nonneg u0.le M0
    have sM : 0 ≤ (s : ℝ) * (14 * (uu * M)) := by positivity
    push_cast at he
    have s1 : (1 : ℝ) ≤ 2 ^ (s + 1) := one_le_pow₀ (by norm_num)
    have e1 : e ≤ M / 2 ^ 20 := by linarith
    have b1 : M * 4 ≤ big := by
      refine le_trans ?_ hM2
      have := mul_le_mul_of_nonneg_left s1 M0
      linarith
    -- the halves
    have halves : ∀ q < 2 ^ s, pev (s + 2) f (root (s + 2) (2 * q)) + pev (s + 2) f (root (s + 2) (2 * q + 1)) = 2 * pev (s + 1) (fun j => f (2 * j)) (root (s + 1) q) ∧
        (pev (s + 2) f (root (s + 2) (2 * q)) - pev (s + 2) f (root (s + 2) (2 * q + 1))) * (starRingEnd ℂ) (gmE (s + 1) q) = 2 * pev (s + 1) (fun j => f (2 * j + 1)) (root (s + 1) q) := by
      intro q hq
      have nn : gmE (s + 1) q * (starRingEnd ℂ) (gmE (s + 1) q) = 1 := by
        rw [Complex.mul_conj, Complex.normSq_eq_norm_sq, gmE_norm]; norm_num
      rw [root_even s q hq, root_odd s q hq, pev_split (s + 1) f (gmE (s + 1) q), pev_split (s + 1) f (-gmE (s + 1) q), neg_sq, gmE_root_sq s q hq]
      constructor
      · ring
      · linear_combination 2 * pev (s + 1) (fun j => f (2 * j + 1)) (root (s + 1) q) * nn
    have close := fun q (hq : q < 2 ^ s) =>
      split_close (F (2 * q)) (F (2 * q + 1)) (gmConj (2 ^ (s + 1) + q)) _ _ ((starRingEnd ℂ) (gmE (s + 1) q)) e M (hF (2 * q) (by rw [pow_succ]; omega)).1 (hF (2 * q + 1) (by rw [pow_succ]; omega)).1
        (hF (2 * q) (by rw [pow_succ]; omega)).2 (hF (2 * q + 1) (by rw [pow_succ]; omega)).2 (gmConj_close (s + 1) (by omega) q (by rw [pow_succ]; omega)) (by rw [Complex.norm_conj, gmE_norm])
        (hM (2 * q) (by rw [pow_succ]; omega)) (hM (2 * q + 1) (by rw [pow_succ]; omega)) e1 hM1 b1
    have bnd : ∀ b < 2, ∀ q < 2 ^ s, ‖(2 : ℂ) * pev (s + 1) (fun j => f (2 * j + b)) (root (s + 1) q)‖ ≤ 2 * M := by
      intro b hb q hq
      have m1 := hM (2 * q) (by rw [pow_succ]; omega)
      have m2 := hM (2 * q + 1) (by rw [pow_succ]; omega)
      interval_cases b
      · simp only [add_zero]
        rw [← (halves q hq).1]
        exact (norm_add_le _ _).trans (by linarith)
      · rw [← (halves q hq).2, norm_mul, Complex.norm_conj, gmE_norm, mul_one]
        exact (norm_sub_le _ _).trans (by linarith)
    have pw : (2 : ℝ) ^ (s + 1) = 2 * 2 ^ s := by rw [pow_succ]; ring
    have fin : ∀ b < 2, ∀ G : ℕ → C, Approx s G (fun j => 2 * f (2 * j + b)) (2 * e + 28 * (uu * M)) → ∀ q < 2 ^ s,
        Good (rifft s G q) ∧ ‖cv (rifft s G q) - 2 ^ (s + 1) * (⟨f (2 * q + b), f (2 * q + b + 2 ^ (s + 1))⟩ : ℂ)‖ ≤ 2 ^ (s + 1) * (e + ((s + 1 : ℕ) : ℝ) * (14 * (uu * M))) ∧ ‖(⟨f (2 * q + b), f (2 * q + b + 2 ^ (s + 1))⟩ : ℂ)‖ ≤ M := by
      intro b hb G hG q hq
      have c1 : ∀ p < 2 ^ s, ‖pev (s + 1) (fun j => 2 * f (2 * j + b)) (root (s + 1) p)‖ ≤ 2 * M := by
        intro p hp
        rw [pev_smul]
        have := bnd b hb p hp
        push_cast; exact this
      have c2 : (2 * e + 28 * (uu * M)) + s * (14 * (uu * (2 * M))) ≤ 2 * M / 2 ^ 20 := by
        have : (2 * e + 28 * (uu * M)) + s * (14 * (uu * (2 * M))) = 2 * (e + (s + 1) * (14 * (uu * M))) := by ring
        rw [this]; linarith
      have c3 : eta ≤ uu * (2 * M) / 2 ^ 10 := by
        refine hM1.trans ?_
        have : uu * (2 * M) = 2 * (uu * M) := by ring
        rw [this]; norm_num; linarith
      have c4 : 2 * M * 2 ^ s * 4 ≤ big := by
        refine le_trans (le_of_eq ?_) hM2
        rw [pw]; ring
      obtain ⟨r1, r2, r3⟩ := ih (by omega) G (fun j => 2 * f (2 * j + b)) (2 * e + 28 * (uu * M)) (2 * M) hG c1 c2 c3 c4 q hq
      have ec : (⟨2 * f (2 * q + b), 2 * f (2 * (q + 2 ^ s) + b)⟩ : ℂ) = 2 * (⟨f (2 * q + b), f (2 * q + b + 2 ^ (s + 1))⟩ : ℂ) := by
        rw [show 2 * (q + 2 ^ s) + b = 2 * q + b + 2 ^ (s + 1) by rw [pow_succ]; ring]
        apply Complex.ext <;> simp
      rw [ec] at r2 r3
      refine ⟨r1, ?_, ?_⟩
      · rw [show (2 : ℂ) ^ (s + 1) = 2 ^ s * 2 by rw [pow_succ], mul_assoc]
        refine r2.trans (le_of_eq ?_)
        rw [pw]; push_cast; ring
      · rw [norm_mul] at r3
        simp only [Complex.norm_ofNat] at r3
        linarith
    obtain ⟨q, b, hb, rfl⟩ : ∃ q b, b < 2 ∧ p = 2 * q + b := ⟨p / 2, p % 2, Nat.mod_lt _ (by norm_num), by omega⟩
    have hq : q < 2 ^ s := by rw [pow_succ] at hp; omega
    have un : ∀ b < 2, rifft (s + 1) F (2 * q + b) = rifft s (if b = 0 then fun j => cAdd (F (2 * j)) (F (2 * j + 1)) else fun j => cMul (cSub (F (2 * j)) (F (2 * j + 1))) (gmConj (2 ^ (s + 1) + j))) q := by
      intro b hb
      conv_lhs => unfold rifft
      rw [show (2 * q + b) / 2 = q by omega, show (2 * q + b) % 2 = b by omega]
      split <;> rfl
    rw [un b hb]
    refine fin b hb _ ?_ q hq
    intro r hr
    rw [pev_smul]
    interval_cases b
    · rw [if_pos rfl]
      have := (close r hr).1
      rw [(halves r hr).1] at this
      simpa using this
    · rw [if_neg (by norm_num)]
      have := (close r hr).2
      rw [(halves r hr).2] at this
      simpa using this

end Verif.CRef.Fft
