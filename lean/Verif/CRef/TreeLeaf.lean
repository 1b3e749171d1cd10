import Verif.CRef.TreeNode
import Verif.CRef.TreeSpec
import Verif.CRef.FprConst
import Verif.CRef.FprSqrt
import Verif.CRef.SignSamplerMain

/-! # The leaves of the sampling tree -/

namespace Verif.CRef.Fft

open Verif.CRef.Fpr Verif.CRef.Orth Verif.CRef.SignDyn Verif.CRef.SignSampler

/-- The constants of the ten degrees. -/
theorem sigmas (k : ℕ) (h1 : 1 ≤ k) (h2 : k ≤ 10) : 1 / 256 ≤ val invSigma[k]! ∧ 1 ≤ val sigmaMin[k]! ∧ val sigmaMin[k]! ≤ 2 ∧ val invSigma[k]! ^ 2 * 16823 ≤ 9 / 10 ∧ 2 * val inv2sqrsigma0 * (1 + 1 / 2 ^ 20) ≤ val invSigma[k]! ^ 2 * 8600 ∧
    1 / 4 * (1 + 1 / 2 ^ 20) ≤ (val invSigma[k]! * val sigmaMin[k]!) ^ 2 * 8600 ∧ (val invSigma[k]! * val sigmaMin[k]!) ^ 2 * 16822.31 ≤ 1 - 1 / 2 ^ 20 := by
  have e0 := val_word inv2sqrsigma0 0 1020 931886595816386 (fields_dec _ _ _ _ (by decide)) (by norm_num)
  interval_cases k
  · have e1 : val invSigma[1]! = _ := val_word 4574611497772390042#64 0 1015 3457875991336602 (fields_dec _ _ _ _ (by decide)) (by norm_num)
    have e2 : val sigmaMin[1]! = _ := val_word 4607707126469777035#64 0 1023 524707669759627 (fields_dec _ _ _ _ (by decide)) (by norm_num)
    rw [e0, e1, e2]
    norm_num
  · have e1 : val invSigma[2]! = _ := val_word 4574501679055810265#64 0 1015 3348057274756825 (fields_dec _ _ _ _ (by decide)) (by norm_num)
    have e2 : val sigmaMin[2]! = _ := val_word 4607777455861499430#64 0 1023 595037061482022 (fields_dec _ _ _ _ (by decide)) (by norm_num)
    rw [e0, e1, e2]
    norm_num
  · have e1 : val invSigma[3]! = _ := val_word 4574396282908341804#64 0 1015 3242661127288364 (fields_dec _ _ _ _ (by decide)) (by norm_num)
    have e2 : val sigmaMin[3]! = _ := val_word 4607846828256951418#64 0 1023 664409456934010 (fields_dec _ _ _ _ (by decide)) (by norm_num)
    rw [e0, e1, e2]
    norm_num
  · have e1 : val invSigma[4]! = _ := val_word 4574245855758572086#64 0 1015 3092233977518646 (fields_dec _ _ _ _ (by decide)) (by norm_num)
    have e2 : val sigmaMin[4]! = _ := val_word 4607949175006100261#64 0 1023 766756206082853 (fields_dec _ _ _ _ (by decide)) (by norm_num)
    rw [e0, e1, e2]
    norm_num
  · have e1 : val invSigma[5]! = _ := val_word 4574103865040221165#64 0 1015 2950243259167725 (fields_dec _ _ _ _ (by decide)) (by norm_num)
    have e2 : val sigmaMin[5]! = _ := val_word 4608049571757433526#64 0 1023 867152957416118 (fields_dec _ _ _ _ (by decide)) (by norm_num)
    rw [e0, e1, e2]
    norm_num
  · have e1 : val invSigma[6]! = _ := val_word 4573969550563515544#64 0 1015 2815928782462104 (fields_dec _ _ _ _ (by decide)) (by norm_num)
    have e2 : val sigmaMin[6]! = _ := val_word 4608148125896792003#64 0 1023 965707096774595 (fields_dec _ _ _ _ (by decide)) (by norm_num)
    rw [e0, e1, e2]
    norm_num
  · have e1 : val invSigma[7]! = _ := val_word 4573842244705920822#64 0 1015 2688622924867382 (fields_dec _ _ _ _ (by decide)) (by norm_num)
    have e2 : val sigmaMin[7]! = _ := val_word 4608244935301382692#64 0 1023 1062516501365284 (fields_dec _ _ _ _ (by decide)) (by norm_num)
    rw [e0, e1, e2]
    norm_num
  · have e1 : val invSigma[8]! = _ := val_word 4573721358406441454#64 0 1015 2567736625388014 (fields_dec _ _ _ _ (by decide)) (by norm_num)
    have e2 : val sigmaMin[8]! = _ := val_word 4608340089478362016#64 0 1023 1157670678344608 (fields_dec _ _ _ _ (by decide)) (by norm_num)
    rw [e0, e1, e2]
    norm_num
  · have e1 : val invSigma[9]! = _ := val_word 4573606369665796042#64 0 1015 2452747884742602 (fields_dec _ _ _ _ (by decide)) (by norm_num)
    have e2 : val sigmaMin[9]! = _ := val_word 4608433670533905013#64 0 1023 1251251733887605 (fields_dec _ _ _ _ (by decide)) (by norm_num)
    rw [e0, e1, e2]
    norm_num
  · have e1 : val invSigma[10]! = _ := val_word 4573496814039276259#64 0 1015 2343192258222819 (fields_dec _ _ _ _ (by decide)) (by norm_num)
    have e2 : val sigmaMin[10]! = _ := val_word 4608525754002622308#64 0 1023 1343335202604900 (fields_dec _ _ _ _ (by decide)) (by norm_num)
    rw [e0, e1, e2]
    norm_num

theorem suits (k : ℕ) (h1 : 1 ≤ k) (h2 : k ≤ 10) (x : W) (lo : 8600 ≤ val x) (hi : val x ≤ 16822.31) : Suits k (mul (sqrt x) invSigma[k]!) := by
  obtain ⟨s1, s2, s3, s4, s5, s6, s7⟩ := sigmas k h1 h2
  have u0 := uu_pos
  have e0 := eta_pos
  have et := eta_tiny
  have un := uu_num
  obtain ⟨I, hI⟩ : ∃ I, val invSigma[k]! = I := ⟨_, rfl⟩
  obtain ⟨σ, hσ⟩ : ∃ σ, val sigmaMin[k]! = σ := ⟨_, rfl⟩
  obtain ⟨V, hV⟩ : ∃ V, val inv2sqrsigma0 = V := ⟨_, rfl⟩
  have V0 : 0 ≤ V := by rw [← hV, val_word inv2sqrsigma0 0 1020 931886595816386 (fields_dec _ _ _ _ (by decide)) (by norm_num)]; norm_num
  unfold Suits
  rw [hI] at s1 s4 s5 s6 s7
  rw [hσ] at s2 s3 s6 s7 ⊢
  rw [hV] at s5 ⊢
  obtain ⟨X, hX⟩ : ∃ X, val x = X := ⟨_, rfl⟩
  have S := C99_sqrt x
  rw [hX] at lo hi S
  have X0 : 0 ≤ X := by linarith
  rw [abs_of_nonneg X0] at S
  obtain ⟨r, hr⟩ : ∃ r, Real.sqrt X = r := ⟨_, rfl⟩
  have r0 : 0 ≤ r := hr ▸ Real.sqrt_nonneg _
  have rr : r ^ 2 = X := by rw [← hr]; exact Real.sq_sqrt X0
  have r1 : r ≤ 200 := by nlinarith
  have r2 : 64 ≤ r := by nlinarith
  rw [hr] at S
  obtain ⟨_, cy⟩ := rd _ _ S (by rw [abs_of_nonneg r0]; linarith)
  rw [abs_of_nonneg r0] at cy
  generalize sqrt x = y at *
  obtain ⟨Y, hY⟩ : ∃ Y, val y = Y := ⟨_, rfl⟩
  have I1 : I ≤ 1 := by nlinarith
  have I0 : 0 < I := by linarith
  have et1 : eta ≤ uu * (1 / 1000) := et.trans (mul_le_mul_of_nonneg_left (by norm_num) u0.le)
  have ur : uu * 64 ≤ uu * r := mul_le_mul_of_nonneg_left r2 u0.le
  have ur2 : uu * r ≤ r / 1000 := by rw [un]; norm_num; linarith
  rw [hY] at cy
  have cy2 : |Y - r| ≤ 1001 / 1000 * (uu * r) := by linarith
  obtain ⟨y1, y2⟩ := abs_le.1 cy2
  have Yp : 0 < Y := by linarith
  have M := C99_mul y invSigma[k]!
  rw [hY, hI] at M
  obtain ⟨_, cz⟩ := rd _ _ M (by rw [abs_of_nonneg (by positivity)]; calc Y * I ≤ 300 * 1 := mul_le_mul (by linarith) I1 I0.le (by norm_num)
    _ ≤ _ := by norm_num)
  rw [abs_of_nonneg (show 0 ≤ Y * I by positivity)] at cz
  generalize val (mul y invSigma[k]!) = z at *
  obtain ⟨w, hw⟩ : ∃ w, r * I = w := ⟨_, rfl⟩
  have w14 : 1 / 4 ≤ w := by rw [← hw]; nlinarith
  have YI : |Y * I - w| ≤ 1001 / 1000 * (uu * w) := by
    rw [← hw, ← sub_mul, abs_mul, abs_of_pos I0, ← mul_assoc uu, ← mul_assoc]; exact mul_le_mul_of_nonneg_right cy2 I0.le
  have uw : uu * w ≤ w / 1000 := by rw [un]; norm_num; linarith
  obtain ⟨k1, k2⟩ := abs_le.1 YI
  have uw4 : uu * (1 / 4) ≤ uu * w := mul_le_mul_of_nonneg_left w14 u0.le
  have uYI : uu * (Y * I) ≤ uu * (1002 / 1000 * w) := mul_le_mul_of_nonneg_left (by linarith) u0.le
  have cw : |z - w| ≤ 4 * (uu * w) := by
    have := abs_add_le (z - Y * I) (Y * I - w)
    rw [sub_add_sub_cancel] at this; linarith
  obtain ⟨z1, z2⟩ := abs_le.1 cw
  have w0 : 0 < w := by linarith
  have us : uu ≤ 1 / 2 ^ 53 := le_refl _
  have zl : w * (1 - 4 * uu) ≤ z := by linarith
  have zh : z ≤ w * (1 + 4 * uu) := by linarith
  have u4 : 0 < 1 - 4 * uu := by rw [un]; norm_num
  have z0 : 0 < z := lt_of_lt_of_le (by positivity) zl
  have zl2 : w ^ 2 * (1 - 1 / 2 ^ 30) ≤ z ^ 2 := by
    have := pow_le_pow_left₀ (by positivity) zl 2
    rw [mul_pow] at this
    refine le_trans (mul_le_mul_of_nonneg_left ?_ (sq_nonneg w)) this
    rw [un]; norm_num
  have zh2 : z ^ 2 ≤ w ^ 2 * (1 + 1 / 2 ^ 30) := by
    have := pow_le_pow_left₀ z0.le zh 2
    rw [mul_pow] at this
    refine this.trans (mul_le_mul_of_nonneg_left ?_ (sq_nonneg w))
    rw [un]; norm_num
  have w2 : w ^ 2 = I ^ 2 * X := by rw [← hw, mul_pow, rr]; ring
  have wl : I ^ 2 * 8600 ≤ w ^ 2 := by rw [w2]; exact mul_le_mul_of_nonneg_left lo (sq_nonneg I)
  have wh : w ^ 2 ≤ I ^ 2 * 16822.31 := by rw [w2]; exact mul_le_mul_of_nonneg_left hi (sq_nonneg I)
  have σ0 : 0 < σ := by linarith
  refine ⟨z0.le, ?_, ?_, ?_, ?_⟩
  · rw [← abs_of_pos z0, ← abs_one, ← sq_le_sq, one_pow]
    have a : w ^ 2 ≤ 9 / 10 := wh.trans (le_trans (mul_le_mul_of_nonneg_left (by norm_num) (sq_nonneg I)) s4)
    have b := zh2.trans (mul_le_mul_of_nonneg_right a (show (0 : ℝ) ≤ 1 + 1 / 2 ^ 30 by norm_num))
    exact b.trans (by norm_num)
  · refine le_trans ?_ zl2
    have := mul_le_mul_of_nonneg_right wl (show (0 : ℝ) ≤ 1 - 1 / 2 ^ 30 by norm_num)
    refine le_trans ?_ this
    have := mul_le_mul_of_nonneg_right s5 (show (0 : ℝ) ≤ 1 - 1 / 2 ^ 30 by norm_num)
    refine le_trans ?_ this
    norm_num; linarith
  · rw [← abs_of_pos (mul_pos z0 σ0), ← abs_of_pos (show (0 : ℝ) < 1 / 2 by norm_num), ← sq_le_sq, mul_pow]
    have a := mul_le_mul_of_nonneg_right (le_trans (mul_le_mul_of_nonneg_right wl (show (0 : ℝ) ≤ 1 - 1 / 2 ^ 30 by norm_num)) zl2) (sq_nonneg σ)
    have b := mul_le_mul_of_nonneg_right s6 (show (0 : ℝ) ≤ 1 - 1 / 2 ^ 30 by norm_num)
    have e : (I * σ) ^ 2 * 8600 * (1 - 1 / 2 ^ 30) = I ^ 2 * 8600 * (1 - 1 / 2 ^ 30) * σ ^ 2 := by ring
    rw [e] at b
    refine le_trans ?_ a
    refine le_trans ?_ b
    norm_num
  · rw [← abs_of_pos (mul_pos z0 σ0), ← abs_of_pos (show (0 : ℝ) < 1 - 1 / 2 ^ 53 by norm_num), ← sq_le_sq, mul_pow]
    have a := mul_le_mul_of_nonneg_right (zh2.trans (mul_le_mul_of_nonneg_right wh (show (0 : ℝ) ≤ 1 + 1 / 2 ^ 30 by norm_num))) (sq_nonneg σ)
    have b := mul_le_mul_of_nonneg_right s7 (show (0 : ℝ) ≤ 1 + 1 / 2 ^ 30 by norm_num)
    have e : (I * σ) ^ 2 * 16822.31 * (1 + 1 / 2 ^ 30) = I ^ 2 * 16822.31 * (1 + 1 / 2 ^ 30) * σ ^ 2 := by ring
    rw [e] at b
    refine a.trans (b.trans ?_)
    norm_num

/-- The tree below a diagonal element: samplers that agree where `isigma` belongs to a leaf within the bounds give the same result. -/
theorem tree {τ : Type} (samp samp' : Samp τ) (R : W → Prop) (hag : ∀ st mu is, R is → samp st mu is = samp' st mu is) (orig : ℕ) (EH ρ c mL MH e : ℝ) (hmL : 4 ≤ mL) (MH0 : 0 ≤ MH) (hMH : MH ≤ 2 ^ 26) (hEH0 : 0 ≤ EH) (hEH : EH ≤ 1)
    (he : e = 128 * uu * MH) (hρ : (EH / 2) ^ 2 / mL ^ 2 + e / mL ≤ ρ) (hρ2 : ρ ≤ 1 / 2) (hc : c = 1 + 2 * ρ) :
    ∀ (s : ℕ) (_ : s ≤ 9) (D : List W) (m M E A H : ℝ) (_ : 0 ≤ E) (_ : Node s D m M E A H) (_ : mL * c ^ s ≤ m) (_ : M * c ^ s ≤ MH) (_ : 2 ^ s * (E + e) ≤ EH)
      (_ : ∀ x : W, 0 < val x → 1 / val x ≤ c ^ s * H → val x ≤ c ^ s * A → R (mul (sqrt x) invSigma[orig]!)) (x0 x1 : List W) (st : τ),
      ffSampling samp orig s x0 x1 (polySplitFft D (s + 1)).1 (polySplitFft D (s + 1)).2 (polySplitFft D (s + 1)).1 st =
      ffSampling samp' orig s x0 x1 (polySplitFft D (s + 1)).1 (polySplitFft D (s + 1)).2 (polySplitFft D (s + 1)).1 st := by
  have u0 := uu_pos
  intro s
  induction s with
  | zero =>
    intro _ D m M E A H E0 hN hm hM hE hR x0 x1 st
    have n1 := hN.lo 0 (by norm_num)
    have n2 := hN.mean
    have n3 := hN.inv
    simp only [pow_zero, mul_one, one_mul, Finset.sum_range_one] at n1 n2 n3 hm hM hR
    have e0 : (slot D 1 0).1 = D[0]! := rfl
    rw [e0] at n1 n2 n3
    have g : (polySplitFft D (0 + 1)).1[0]! = D[0]! := by unfold polySplitFft; dsimp only; rw [if_pos rfl]; rfl
    unfold ffSampling
    dsimp only
    rw [g]
    have r := hR D[0]! (by linarith) n3 n2
    rw [hag st _ _ r]
    cases samp' st x0[0]! (mul (sqrt D[0]!) invSigma[orig]!) with
    | none => rfl
    | some a =>
      dsimp only
      rw [hag a.2 _ _ r]
  | succ s ih =>
    intro hs D m M E A H E0 hN hm hM hE hR x0 x1 st
    have e0 : 0 ≤ e := by rw [he]; positivity
    have ρ0 : 0 ≤ ρ := le_trans (by positivity) hρ
    have c1 : 1 ≤ c := by linarith
    have c0 : 0 < c := by linarith
    have cs : 1 ≤ c ^ (s + 1) := one_le_pow₀ c1
    have mm : mL ≤ m := le_trans (by nlinarith) hm
    have n1 := (hN.lo 0 (by positivity)).trans (hN.hi 0 (by positivity))
    have M0 : 0 < M := by linarith
    have MM : M ≤ MH := le_trans (by nlinarith) hM
    have E2 : E ≤ EH / 2 := by
      have : (2 : ℝ) * (E + e) ≤ 2 ^ (s + 1) * (E + e) := by
        refine mul_le_mul_of_nonneg_right ?_ (by positivity)
        rw [pow_succ]; have := one_le_pow₀ (show (1 : ℝ) ≤ 2 by norm_num) (n := s); linarith
      linarith
    have em : 128 * uu * M ≤ e := by rw [he]; exact mul_le_mul_of_nonneg_left MM (by positivity)
    have m0 : 0 < m := by linarith
    have hρ' : E ^ 2 / m ^ 2 + 128 * uu * M / m ≤ ρ := by
      refine le_trans (add_le_add ?_ ?_) hρ
      · exact div_le_div₀ (by positivity) (pow_le_pow_left₀ E0 E2 2) (by positivity) (pow_le_pow_left₀ (by linarith) mm 2)
      · exact div_le_div₀ e0 em (by linarith) mm
    obtain ⟨N0, N1⟩ := node_step s (by omega) D m M E A H ρ c (by linarith) (by linarith) E0 (by linarith) hρ' hρ2 hc hN
    have k1 : mL * c ^ s ≤ m / c := by rw [le_div_iff₀ c0, mul_assoc, ← pow_succ]; exact hm
    have k2 : c * M * c ^ s ≤ MH := by rw [show c * M * c ^ s = M * c ^ (s + 1) by rw [pow_succ]; ring]; exact hM
    have k3 : 2 ^ s * (2 * E + 128 * uu * M + e) ≤ EH := by
      refine le_trans ?_ hE
      rw [show (2 : ℝ) ^ (s + 1) * (E + e) = 2 ^ s * (2 * E + e + e) by rw [pow_succ]; ring]
      exact mul_le_mul_of_nonneg_left (by linarith) (by positivity)
    have k4 : ∀ x : W, 0 < val x → 1 / val x ≤ c ^ s * (c * H) → val x ≤ c ^ s * (c * A) → R (mul (sqrt x) invSigma[orig]!) := fun x a b d => by
      refine hR x a ?_ ?_
      · rw [pow_succ, mul_assoc]; exact b
      · rw [pow_succ, mul_assoc]; exact d
    have E1 : 0 ≤ 2 * E + 128 * uu * M := by positivity
    have r0 := ih (by omega) _ _ _ _ _ _ E1 N0 k1 k2 k3 k4
    have r1 := ih (by omega) _ _ _ _ _ _ E1 N1 k1 k2 k3 k4
    unfold ffSampling
    dsimp only
    rw [r1]
    generalize ffSampling samp' orig s _ _ _ _ _ st = q
    cases q with
    | none => rfl
    | some a =>
      dsimp only
      rw [r0]

end Verif.CRef.Fft
