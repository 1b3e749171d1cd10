import Verif.CRef.FftGm
import Verif.CRef.FftLoop
import Mathlib.Tactic.LinearCombination

/-! # The forward transform -/

namespace Verif.CRef.Fft

open Verif.CRef.Fpr

/-! ## Recursive form -/

/-- One stage on slots. -/
def stg (h m : ℕ) (F : ℕ → C) (p : ℕ) : C :=
  if p % (2 * h) < h then cAdd (F p) (cMul (F (p + h)) (gm (m + p / (2 * h)))) else cSub (F (p - h)) (cMul (F p) (gm (m + p / (2 * h))))

/-- The loop on slots; the block size is `2^s` when `s` rounds are left. -/
def loopF : ℕ → ℕ → (ℕ → C) → ℕ → C
  | 0, _, F => F
  | s + 1, m, F => loopF s (2 * m) (stg (2 ^ s) m F)

/-- The recursive transform on `2^s` complex slots. -/
def rfft : ℕ → (ℕ → C) → ℕ → C
  | 0, F => F
  | s + 1, F => fun p =>
    let a := rfft s (fun j => F (2 * j)) (p / 2)
    let b := cMul (rfft s (fun j => F (2 * j + 1)) (p / 2)) (gm (2 ^ (s + 1) + p / 2))
    if p % 2 = 0 then cAdd a b else cSub a b

theorem fftStage_slot (hn h m : ℕ) (hm : m / 2 * (2 * h) = hn) (hh : 0 < h) (f : List W) (hf : f.length = 2 * hn) :
    (fftStage hn (2 * h) m f).length = 2 * hn ∧ ∀ p < hn, slot (fftStage hn (2 * h) m f) hn p = stg h m (slot f hn) p := by
  have e : 2 * h / 2 = h := by omega
  have key := two_loops hn h (m / 2) (by omega) (fun i x y => cAdd x (cMul y (gm (m + i)))) (fun i x y => cSub x (cMul y (gm (m + i)))) (fun i f j => fftButterfly hn h (gm (m + i)) f j) (fun i f j => rfl) f hf
  unfold fftStage
  rw [e]
  refine ⟨key.1, fun p hp => ?_⟩
  have hd := Nat.div_add_mod p (2 * h)
  have hlt := Nat.mod_lt p (show 0 < 2 * h by omega)
  have hi : p / (2 * h) < m / 2 := by rw [Nat.div_lt_iff_lt_mul (by omega)]; omega
  unfold stg
  rw [mul_comm] at hd
  by_cases c : p % (2 * h) < h
  · rw [if_pos c]
    have := (key.2 _ hi _ c).1
    rw [hd] at this
    exact this
  · rw [if_neg c]
    have := (key.2 _ hi (p % (2 * h) - h) (by omega)).2
    rw [show p / (2 * h) * (2 * h) + (p % (2 * h) - h) + h = p by omega, show p / (2 * h) * (2 * h) + (p % (2 * h) - h) = p - h by omega] at this
    exact this

theorem stg_congr (hn h m : ℕ) (hm : m / 2 * (2 * h) = hn) (hh : 0 < h) (F G : ℕ → C) (H : ∀ p < hn, F p = G p) : ∀ p < hn, stg h m F p = stg h m G p := by
  intro p hp
  have hd := Nat.div_add_mod p (2 * h)
  have hlt := Nat.mod_lt p (show 0 < 2 * h by omega)
  have hi : p / (2 * h) < m / 2 := by rw [Nat.div_lt_iff_lt_mul (by omega)]; omega
  have : (p / (2 * h) + 1) * (2 * h) ≤ m / 2 * (2 * h) := Nat.mul_le_mul_right _ hi
  rw [add_mul, one_mul, mul_comm] at this
  unfold stg
  split
  · rw [H p hp, H (p + h) (by omega)]
  · rw [H p hp, H (p - h) (by omega)]

theorem loopF_congr (hn : ℕ) : ∀ (s m : ℕ) (F G : ℕ → C), m * 2 ^ s = 2 * hn → m % 2 = 0 → (∀ p < hn, F p = G p) → ∀ p < hn, loopF s m F p = loopF s m G p
  | 0, _, _, _, _, _, H => H
  | s + 1, m, F, G, hm, h2, H => by
    refine loopF_congr hn s (2 * m) _ _ (by rw [← hm, pow_succ]; ring) (by omega) (stg_congr hn (2 ^ s) m ?_ (by positivity) F G H)
    obtain ⟨k, rfl⟩ : ∃ k, m = 2 * k := ⟨m / 2, by omega⟩
    rw [Nat.mul_div_cancel_left _ (by norm_num)]
    rw [pow_succ] at hm
    nlinarith

theorem fftLoop_slot (hn : ℕ) : ∀ (s m : ℕ) (f : List W), m * 2 ^ s = 2 * hn → m % 2 = 0 → f.length = 2 * hn →
    (fftLoop hn s (2 ^ s) m f).length = 2 * hn ∧ ∀ p < hn, slot (fftLoop hn s (2 ^ s) m f) hn p = loopF s m (slot f hn) p
  | 0, _, f, _, _, hf => ⟨hf, fun _ _ => rfl⟩
  | s + 1, m, f, hm, h2, hf => by
    have hm' : m / 2 * (2 * 2 ^ s) = hn := by
      obtain ⟨k, rfl⟩ : ∃ k, m = 2 * k := ⟨m / 2, by omega⟩
      rw [Nat.mul_div_cancel_left _ (by norm_num)]
      rw [pow_succ] at hm
      nlinarith
    obtain ⟨l1, s1⟩ := fftStage_slot hn (2 ^ s) m hm' (by positivity) f hf
    have e : 2 ^ (s + 1) = 2 * 2 ^ s := by rw [pow_succ]; ring
    have hm2 : 2 * m * 2 ^ s = 2 * hn := by rw [← hm, pow_succ]; ring
    obtain ⟨l2, s2⟩ := fftLoop_slot hn s (2 * m) (fftStage hn (2 * 2 ^ s) m f) hm2 (by omega) l1
    unfold fftLoop loopF
    rw [e, Nat.mul_div_cancel_left _ (by norm_num)]
    refine ⟨l2, fun p hp => ?_⟩
    rw [s2 p hp]
    exact loopF_congr hn s (2 * m) _ _ hm2 (by omega) s1 p hp

theorem stg_even_odd (h m : ℕ) (hh : 0 < h) (F : ℕ → C) (b : ℕ) (hb : b < 2) : (fun p => stg (2 * h) m F (2 * p + b)) = stg h m (fun p => F (2 * p + b)) := by
  funext p
  have e1 : (2 * p + b) / (2 * (2 * h)) = p / (2 * h) := by
    rw [← Nat.div_div_eq_div_mul, show (2 * p + b) / 2 = p by omega]
  have e2 : (2 * p + b) % (2 * (2 * h)) = 2 * (p % (2 * h)) + b := by
    rw [Nat.mod_mul, show (2 * p + b) % 2 = b by omega, show (2 * p + b) / 2 = p by omega]; ring
  unfold stg
  rw [e1, e2]
  by_cases c : p % (2 * h) < h
  · rw [if_pos c, if_pos (by omega), show 2 * p + b + 2 * h = 2 * (p + h) + b by ring]
  · have : p % (2 * h) ≤ p := Nat.mod_le _ _
    rw [if_neg c, if_neg (by omega), show 2 * p + b - 2 * h = 2 * (p - h) + b by omega]

theorem loopF_last : ∀ (s m : ℕ) (F : ℕ → C) (p : ℕ),
    loopF (s + 1) m F (2 * p) = cAdd (loopF s m (fun j => F (2 * j)) p) (cMul (loopF s m (fun j => F (2 * j + 1)) p) (gm (m * 2 ^ s + p))) ∧
    loopF (s + 1) m F (2 * p + 1) = cSub (loopF s m (fun j => F (2 * j)) p) (cMul (loopF s m (fun j => F (2 * j + 1)) p) (gm (m * 2 ^ s + p)))
  | 0, m, F, p => by
    unfold loopF loopF stg
    simp only [pow_zero, mul_one]
    constructor
    · rw [if_pos (by omega), show 2 * p / 2 = p by omega]
    · rw [if_neg (by omega), show (2 * p + 1) / 2 = p by omega, Nat.add_sub_cancel]
  | s + 1, m, F, p => by
    have ih := loopF_last s (2 * m) (stg (2 ^ (s + 1)) m F) p
    have e0 := stg_even_odd (2 ^ s) m (by positivity) F 0 (by norm_num)
    have e1 := stg_even_odd (2 ^ s) m (by positivity) F 1 (by norm_num)
    rw [← pow_succ'] at e0 e1
    simp only [add_zero] at e0
    rw [e0, e1, show 2 * m * 2 ^ s = m * 2 ^ (s + 1) by rw [pow_succ]; ring] at ih
    exact ih

theorem loopF_rfft : ∀ (s : ℕ) (F : ℕ → C), loopF s 2 F = rfft s F
  | 0, F => rfl
  | s + 1, F => by
    funext p
    obtain ⟨q, b, hb, rfl⟩ : ∃ q b, b < 2 ∧ p = 2 * q + b := ⟨p / 2, p % 2, Nat.mod_lt _ (by norm_num), by omega⟩
    have := loopF_last s 2 F q
    rw [loopF_rfft s, loopF_rfft s, ← pow_succ'] at this
    unfold rfft
    interval_cases b
    · rw [add_zero, this.1]; dsimp only; rw [if_pos (by omega), show 2 * q / 2 = q by omega]
    · rw [this.2]; dsimp only; rw [if_neg (by omega), show (2 * q + 1) / 2 = q by omega]

/-- The transform, slot by slot. -/
theorem fft_slot (s : ℕ) (f : List W) (hf : f.length = 2 ^ (s + 1)) : (fft f (s + 1)).length = 2 ^ (s + 1) ∧ ∀ p < 2 ^ s, slot (fft f (s + 1)) (2 ^ s) p = rfft s (slot f (2 ^ s)) p := by
  have e : 2 ^ (s + 1) / 2 = 2 ^ s := by rw [pow_succ]; omega
  unfold fft
  rw [e, Nat.add_sub_cancel]
  have := fftLoop_slot (2 ^ s) s 2 f (by ring) rfl (by rw [hf, pow_succ]; ring)
  rw [loopF_rfft] at this
  exact ⟨by rw [this.1, pow_succ]; ring, this.2⟩

/-! ## Roots -/

theorem bitrev_low : ∀ (k j : ℕ), j < 2 ^ k → bitrev (k + 1) j = 2 * bitrev k j
  | 0, j, h => by have : j = 0 := by simpa using h
                  subst this; rfl
  | k + 1, j, h => by
    rw [bitrev, bitrev_low k (j / 2) (by rw [pow_succ] at h; omega)]
    conv_rhs => rw [bitrev]
    rw [pow_succ]; ring

theorem root_even (s p : ℕ) (hp : p < 2 ^ s) : root (s + 2) (2 * p) = gmE (s + 1) p := by
  unfold root gmE
  rw [bitrev_low s p hp]
  simp only [Nat.add_succ_sub_one]
  rw [bitrev, show 2 * p % 2 = 0 by omega, show 2 * p / 2 = p by omega]
  congr 1
  push_cast; ring

theorem root_odd (s p : ℕ) (hp : p < 2 ^ s) : root (s + 2) (2 * p + 1) = - gmE (s + 1) p := by
  unfold root gmE
  rw [bitrev_low s p hp]
  simp only [Nat.add_succ_sub_one]
  rw [bitrev, show (2 * p + 1) % 2 = 1 by omega, show (2 * p + 1) / 2 = p by omega]
  have : (-1 : ℂ) = Complex.exp (Real.pi * Complex.I) := by rw [Complex.exp_pi_mul_I]
  rw [← neg_one_mul, this, ← Complex.exp_add]
  congr 1
  push_cast; field_simp; ring

theorem gmE_root_sq (s p : ℕ) (hp : p < 2 ^ s) : gmE (s + 1) p ^ 2 = root (s + 1) p := by
  unfold root gmE
  rw [bitrev_low s p hp, ← Complex.exp_nat_mul]
  simp only [Nat.add_succ_sub_one]
  congr 1
  push_cast; field_simp; ring

theorem pev_split (k : ℕ) (f : ℕ → ℝ) (w : ℂ) : pev (k + 1) f w = pev k (fun j => f (2 * j)) (w ^ 2) + w * pev k (fun j => f (2 * j + 1)) (w ^ 2) := by
  unfold pev
  rw [pow_succ]
  generalize 2 ^ k = n
  induction n with
  | zero => simp
  | succ n ih =>
    rw [show (n + 1) * 2 = n * 2 + 1 + 1 by ring, Finset.sum_range_succ, Finset.sum_range_succ, ih, Finset.sum_range_succ, Finset.sum_range_succ,
      show n * 2 = 2 * n by ring, ← pow_mul, show w ^ (2 * n + 1) = w * w ^ (2 * n) by rw [pow_succ]; ring]
    ring

theorem root_norm (k u : ℕ) : ‖root k u‖ = 1 := by
  unfold root
  rw [show ((4 * bitrev (k - 1) u + 1 : ℕ) * Real.pi * Complex.I / 2 ^ k : ℂ) = (((4 * bitrev (k - 1) u + 1 : ℕ) * Real.pi / 2 ^ k : ℝ) : ℂ) * Complex.I by push_cast; ring]
  exact Complex.norm_exp_ofReal_mul_I _

theorem pev_le (k : ℕ) (f : ℕ → ℝ) (B : ℝ) (hB : ∀ j < 2 ^ k, |f j| ≤ B) (w : ℂ) (hw : ‖w‖ = 1) : ‖pev k f w‖ ≤ 2 ^ k * B := by
  unfold pev
  refine (norm_sum_le _ _).trans ?_
  refine (Finset.sum_le_sum (g := fun _ => B) fun j hj => ?_).trans ?_
  · rw [norm_mul, norm_pow, hw, one_pow, mul_one, Complex.norm_real, Real.norm_eq_abs]; exact hB j (Finset.mem_range.1 hj)
  · rw [Finset.sum_const, Finset.card_range, nsmul_eq_mul]; push_cast; exact le_refl _

/-! ## Errors -/

/-- One merging step. -/
theorem merge_close (a' b' g : C) (a b w : ℂ) (e M : ℝ) (ga : Good a') (gb : Good b') (ha : ‖cv a' - a‖ ≤ e) (hb : ‖cv b' - b‖ ≤ e) (hg : ‖cv g - w‖ ≤ 4 * uu) (hw : ‖w‖ = 1)
    (ma : ‖a‖ ≤ M) (mb : ‖b‖ ≤ M) (he : e ≤ M / 2 ^ 20) (hM : eta ≤ uu * M / 2 ^ 10) (hM2 : M * 4 ≤ big) :
    (Good (cAdd a' (cMul b' g)) ∧ ‖cv (cAdd a' (cMul b' g)) - (a + w * b)‖ ≤ 2 * e + 16 * (uu * M)) ∧
    (Good (cSub a' (cMul b' g)) ∧ ‖cv (cSub a' (cMul b' g)) - (a - w * b)‖ ≤ 2 * e + 16 * (uu * M)) := by
  have u0 := uu_pos
  have u1 : uu ≤ 1 / 2 ^ 53 := le_refl _
  have M0 : 0 ≤ M := (norm_nonneg _).trans ma
  have e0 : 0 ≤ e := (norm_nonneg _).trans ha
  have t1 : ‖cv b'‖ ≤ M + e := by
    have := norm_add_le (cv b' - b) b; rw [sub_add_cancel] at this; linarith
  have t1a : ‖cv a'‖ ≤ M + e := by
    have := norm_add_le (cv a' - a) a; rw [sub_add_cancel] at this; linarith
  have t2 : ‖cv g‖ ≤ 1 + 4 * uu := by
    have := norm_add_le (cv g - w) w; rw [sub_add_cancel, hw] at this; linarith
  have t3 : ‖cv b'‖ * ‖cv g‖ ≤ M * (1 + 1 / 100) := by
    have := mul_le_mul t1 t2 (norm_nonneg _) (by linarith)
    refine this.trans ?_
    have h1 : M + e ≤ M * (1 + 1 / 1000) := by norm_num at he; linarith
    have h2 : 1 + 4 * uu ≤ 1 + 1 / 1000 := by norm_num at u1; linarith
    have := mul_le_mul h1 h2 (by linarith) (by linarith)
    linarith
  obtain ⟨gy, cy⟩ := cMul_close b' g (by linarith)
  have uM : 0 ≤ uu * M := mul_nonneg u0.le M0
  have cy2 : ‖cv (cMul b' g) - w * b‖ ≤ e + 11 * (uu * M) := by
    have h1 : cv (cMul b' g) - w * b = (cv (cMul b' g) - cv b' * cv g) + ((cv b' - b) * cv g + b * (cv g - w)) := by ring
    have h2 := norm_add_le (cv (cMul b' g) - cv b' * cv g) ((cv b' - b) * cv g + b * (cv g - w))
    have h3 := norm_add_le ((cv b' - b) * cv g) (b * (cv g - w))
    rw [norm_mul, norm_mul] at h3
    have h4 := mul_le_mul hb t2 (norm_nonneg _) e0
    have h5 := mul_le_mul mb hg (norm_nonneg _) M0
    have h6 := mul_le_mul_of_nonneg_left t3 u0.le
    have h7 : e * (4 * uu) ≤ M / 2 ^ 20 * (4 * uu) := mul_le_mul_of_nonneg_right he (by linarith)
    rw [← h1] at h2
    norm_num at hM h7
    linarith
  have ny : ‖cv (cMul b' g)‖ ≤ M + e + 11 * (uu * M) := by
    have := norm_add_le (cv (cMul b' g) - w * b) (w * b); rw [sub_add_cancel, norm_mul, hw, one_mul] at this; linarith
  have u2 : uu * M ≤ M / 1000 := by
    have := mul_le_mul_of_nonneg_right u1 M0; norm_num at this; linarith
  have he' : e ≤ M / 1000 := by norm_num at he; linarith
  have fin : ∀ z : ℂ, ‖z‖ ≤ M * (2 + 1 / 10) → uu * (2 * ‖z‖) + 2 * eta ≤ 5 * (uu * M) := by
    intro z hz
    have := mul_le_mul_of_nonneg_left hz u0.le
    norm_num at hM
    linarith
  constructor
  · obtain ⟨g1, c1⟩ := cAdd_close a' (cMul b' g) ga gy (by linarith) (by linarith)
    refine ⟨g1, ?_⟩
    have h1 := norm_add_le (cv (cAdd a' (cMul b' g)) - (cv a' + cv (cMul b' g))) ((cv a' - a) + (cv (cMul b' g) - w * b))
    rw [show cv (cAdd a' (cMul b' g)) - (cv a' + cv (cMul b' g)) + ((cv a' - a) + (cv (cMul b' g) - w * b)) = cv (cAdd a' (cMul b' g)) - (a + w * b) by ring] at h1
    have h2 := norm_add_le (cv a' - a) (cv (cMul b' g) - w * b)
    have h3 := fin (cv a' + cv (cMul b' g)) ((norm_add_le _ _).trans (by linarith))
    linarith
  · obtain ⟨g1, c1⟩ := cSub_close a' (cMul b' g) ga gy (by linarith) (by linarith)
    refine ⟨g1, ?_⟩
    have h1 := norm_add_le (cv (cSub a' (cMul b' g)) - (cv a' - cv (cMul b' g))) ((cv a' - a) - (cv (cMul b' g) - w * b))
    rw [show cv (cSub a' (cMul b' g)) - (cv a' - cv (cMul b' g)) + ((cv a' - a) - (cv (cMul b' g) - w * b)) = cv (cSub a' (cMul b' g)) - (a - w * b) by ring] at h1
    have h2 := norm_sub_le (cv a' - a) (cv (cMul b' g) - w * b)
    have h3 := fin (cv a' - cv (cMul b' g)) ((norm_sub_le _ _).trans (by linarith))
    linarith

/-- Slots `F` hold, up to `e`, the values of the polynomial `f` of degree `2^(s+1)`. -/
def Approx (s : ℕ) (F : ℕ → C) (f : ℕ → ℝ) (e : ℝ) : Prop := ∀ p < 2 ^ s, Good (F p) ∧ ‖cv (F p) - pev (s + 1) f (root (s + 1) p)‖ ≤ e

/-- One merging step on polynomials. -/
theorem merge_approx (s : ℕ) (hs : s ≤ 8) (F0 F1 : ℕ → C) (f : ℕ → ℝ) (e M : ℝ) (h0 : Approx s F0 (fun j => f (2 * j)) e) (h1 : Approx s F1 (fun j => f (2 * j + 1)) e)
    (m0 : ∀ p < 2 ^ s, ‖pev (s + 1) (fun j => f (2 * j)) (root (s + 1) p)‖ ≤ M) (m1 : ∀ p < 2 ^ s, ‖pev (s + 1) (fun j => f (2 * j + 1)) (root (s + 1) p)‖ ≤ M)
    (he : e ≤ M / 2 ^ 20) (hM : eta ≤ uu * M / 2 ^ 10) (hM2 : M * 4 ≤ big) :
    Approx (s + 1) (fun p => if p % 2 = 0 then cAdd (F0 (p / 2)) (cMul (F1 (p / 2)) (gm (2 ^ (s + 1) + p / 2))) else cSub (F0 (p / 2)) (cMul (F1 (p / 2)) (gm (2 ^ (s + 1) + p / 2)))) f (2 * e + 16 * (uu * M)) := by
  intro p hp
  obtain ⟨q, b, hb, rfl⟩ : ∃ q b, b < 2 ∧ p = 2 * q + b := ⟨p / 2, p % 2, Nat.mod_lt _ (by norm_num), by omega⟩
  have hq : q < 2 ^ s := by rw [pow_succ] at hp; omega
  obtain ⟨g0, a0⟩ := h0 q hq
  obtain ⟨g1, a1⟩ := h1 q hq
  obtain ⟨gg, cg⟩ := gm_close (s + 1) (by omega) q (by rw [pow_succ]; omega)
  have key := merge_close (F0 q) (F1 q) (gm (2 ^ (s + 1) + q)) _ _ (gmE (s + 1) q) e M g0 g1 a0 a1 cg (gmE_norm _ _) (m0 q hq) (m1 q hq) he hM hM2
  dsimp only
  rw [show (2 * q + b) / 2 = q by omega, pev_split]
  interval_cases b
  · rw [if_pos (by omega), add_zero, root_even s q hq, gmE_root_sq s q hq]
    exact key.1
  · rw [if_neg (by omega), root_odd s q hq, neg_sq, gmE_root_sq s q hq, neg_mul, ← sub_eq_add_neg]
    exact key.2

/-- The transform of exact coefficients. -/
theorem rfft_approx : ∀ (s : ℕ), s ≤ 9 → ∀ (F : ℕ → C) (f : ℕ → ℝ) (B : ℝ), (∀ j < 2 ^ s, Good (F j) ∧ val (F j).1 = f j ∧ val (F j).2 = f (j + 2 ^ s)) → (∀ j < 2 ^ (s + 1), |f j| ≤ B) →
    eta ≤ uu * B / 2 ^ 10 → B * 2 ^ 12 ≤ big → Approx s (rfft s F) f (s * (8 * (uu * (2 ^ (s + 1) * B)))) := by
  intro s
  induction s with
  | zero =>
    intro _ F f B hF hB _ _ p hp
    have : p = 0 := by simpa using hp
    subst this
    obtain ⟨g, v1, v2⟩ := hF 0 (by norm_num)
    refine ⟨g, ?_⟩
    have e : cv (F 0) = pev 1 f (root 1 0) := by
      unfold cv pev root
      rw [v1, v2, show bitrev (1 - 1) 0 = 0 from rfl, show ((4 * 0 + 1 : ℕ) * Real.pi * Complex.I / 2 ^ 1 : ℂ) = Real.pi / 2 * Complex.I by push_cast; ring, Complex.exp_pi_div_two_mul_I]
      rw [show 2 ^ 1 = 1 + 1 from rfl, Finset.sum_range_succ, Finset.sum_range_succ]
      apply Complex.ext <;> simp
    rw [show rfft 0 F 0 = F 0 from rfl, e, sub_self, norm_zero]
    simp
  | succ s ih =>
    intro hs F f B hF hB hB1 hB2
    have B0 : 0 ≤ B := (abs_nonneg _).trans (hB 0 (by positivity))
    have u0 := uu_pos
    have sp : (2 : ℝ) ^ (s + 1) ≤ 2 ^ 9 := pow_le_pow_right₀ (by norm_num) (by omega)
    have s1 : (1 : ℝ) ≤ 2 ^ (s + 1) := one_le_pow₀ (by norm_num)
    have hb : ∀ b < 2, Approx s (rfft s (fun j => F (2 * j + b))) (fun j => f (2 * j + b)) (s * (8 * (uu * (2 ^ (s + 1) * B)))) := by
      intro b hb
      refine ih (by omega) _ _ B ?_ ?_ hB1 hB2
      · intro j hj
        obtain ⟨g, v1, v2⟩ := hF (2 * j + b) (by rw [pow_succ]; omega)
        exact ⟨g, v1, by rw [v2]; congr 1; rw [pow_succ]; ring⟩
      · intro j hj
        exact hB _ (by rw [pow_succ]; omega)
    have hm : ∀ b < 2, ∀ p < 2 ^ s, ‖pev (s + 1) (fun j => f (2 * j + b)) (root (s + 1) p)‖ ≤ 2 ^ (s + 1) * B := by
      intro b hb p hp
      exact pev_le _ _ B (fun j hj => hB _ (by rw [pow_succ] at *; omega)) _ (root_norm _ _)
    have h0 := hb 0 (by norm_num)
    have h1 := hb 1 (by norm_num)
    have n0 := hm 0 (by norm_num)
    simp only [add_zero] at h0 n0
    have uB : 0 ≤ uu * (2 ^ (s + 1) * B) := by positivity
    have key := merge_approx s (by omega) _ _ f _ (2 ^ (s + 1) * B) h0 h1 n0 (hm 1 (by norm_num)) ?_ ?_ ?_
    · intro p hp
      obtain ⟨k1, k2⟩ := key p hp
      refine ⟨k1, k2.trans (le_of_eq ?_)⟩
      push_cast
      rw [pow_succ (2 : ℝ) (s + 1)]; ring
    · have hs' : (s : ℝ) ≤ 8 := by exact_mod_cast (show s ≤ 8 by omega)
      have := mul_le_mul_of_nonneg_right hs' (show 0 ≤ 8 * (uu * (2 ^ (s + 1) * B)) by linarith)
      refine this.trans ?_
      have h3 : (0 : ℝ) ≤ 2 ^ (s + 1) * B := by positivity
      generalize (2 : ℝ) ^ (s + 1) * B = X at *
      unfold uu
      norm_num
      linarith
    · refine hB1.trans ?_
      have : uu * B * 1 ≤ uu * B * 2 ^ (s + 1) := mul_le_mul_of_nonneg_left s1 (by positivity)
      norm_num
      linarith
    · have := mul_le_mul_of_nonneg_right sp B0
      norm_num at hB2 this
      linarith

end Verif.CRef.Fft
