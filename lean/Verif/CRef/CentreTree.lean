import Verif.CRef.CentreStep
import Verif.CRef.CentreSpec
import Verif.CRef.TreeLeaf
import Verif.CRef.FftInt

/-! # The sampling tree: all centres stay in range -/

namespace Verif.CRef.Fft

open Verif.CRef.Fpr Verif.CRef.Orth Verif.CRef.SignDyn Verif.CRef.SignSampler

theorem polySub_slot (s : ℕ) (F G : List W) (p : ℕ) (hp : p < 2 ^ s) : slot (polySub F G (s + 1)) (2 ^ s) p = cSub (slot F (2 ^ s) p) (slot G (2 ^ s) p) := by
  unfold polySub
  unfold slot cSub
  rw [map_get _ _ p (by rw [pow_succ]; omega), map_get _ _ (p + 2 ^ s) (by rw [pow_succ]; omega)]

theorem polyMul_slot (s : ℕ) (F G : List W) (p : ℕ) (hp : p < 2 ^ s) : slot (polyMulFft F G (s + 1)) (2 ^ s) p = cMul (slot F (2 ^ s) p) (slot G (2 ^ s) p) := by
  have e : 2 ^ (s + 1) / 2 = 2 ^ s := by rw [pow_succ]; omega
  unfold polyMulFft
  rw [e, (ofSlots_slot s _).2 p hp]

/-- A leaf: two draws at distance at most 20. -/
theorem leaf_energy (mu0 mu1 d : W) (z0 z1 : ℤ) (b0 : |val mu0| ≤ 2 ^ 30) (b1 : |val mu1| ≤ 2 ^ 30) (h0 : |(z0 : ℝ) - val mu0| ≤ 20) (h1 : |(z1 : ℝ) - val mu1| ≤ 20) (d0 : 0 ≤ val d) (d1 : val d ≤ 16823) :
    Weak (ofInt z0, ofInt z1) ∧ val d * ‖cv (mu0, mu1) - cv (ofInt z0, ofInt z1)‖ ^ 2 ≤ 800 * 16823 := by
  have lim : ∀ (z : ℤ) (m : ℝ), |m| ≤ 2 ^ 30 → |(z : ℝ) - m| ≤ 20 → |z| < 2 ^ 53 := fun z m hm hz => by
    have : |(z : ℝ)| < 2 ^ 53 := by
      have := abs_add_le ((z : ℝ) - m) m
      rw [sub_add_cancel] at this
      norm_num at *; linarith
    exact_mod_cast this
  obtain ⟨o0, v0⟩ := val_ofInt z0 (lim z0 _ b0 h0)
  obtain ⟨o1, v1⟩ := val_ofInt z1 (lim z1 _ b1 h1)
  refine ⟨⟨o0.1, o1.1⟩, ?_⟩
  have e : ‖cv (mu0, mu1) - cv (ofInt z0, ofInt z1)‖ ^ 2 = (z0 - val mu0) ^ 2 + (z1 - val mu1) ^ 2 := by
    rw [← Complex.normSq_eq_norm_sq, Complex.normSq_apply, Complex.sub_re, Complex.sub_im]
    show (val mu0 - val (ofInt z0)) * (val mu0 - val (ofInt z0)) + (val mu1 - val (ofInt z1)) * (val mu1 - val (ofInt z1)) = _
    rw [v0, v1]; ring
  have q0 : ((z0 : ℝ) - val mu0) ^ 2 ≤ 400 := by rw [← sq_abs]; have := pow_le_pow_left₀ (abs_nonneg _) h0 2; linarith
  have q1 : ((z1 : ℝ) - val mu1) ^ 2 ≤ 400 := by rw [← sq_abs]; have := pow_le_pow_left₀ (abs_nonneg _) h1 2; linarith
  rw [e]
  refine (mul_le_mul d1 (show _ ≤ (800 : ℝ) by linarith) (by positivity) (by norm_num)).trans (by norm_num)

theorem tree2_step {τ : Type} (samp samp' : Samp τ) (orig s : ℕ) (hs : s ≤ 8) (D : List W) (m M E A H ρ c : ℝ) (hm : 16 ≤ m) (hM : M ≤ 2 ^ 24) (E0 : 0 ≤ E) (hE : E ≤ 1 / 2)
    (hρ : E ^ 2 / m ^ 2 + 128 * uu * M / m ≤ ρ) (hρ2 : ρ ≤ 1 / 1000) (mc : 4 ≤ m / c) (hN : Node (s + 1) D m M E A H)
    (N1 : Node s (polyLdlFft (polySplitFft D (s + 2)).1 (polySplitFft D (s + 2)).2 (polySplitFft D (s + 2)).1 (s + 1)).2 (m / c) (c * M) (2 * E + 128 * uu * M) (c * A) (c * H))
    (T En : ℝ) (hT : T ≤ 2 ^ 30 - 2 ^ 24) (hEn : 10 ^ 6 ≤ En) (hEn2 : En ≤ 2 ^ 45)
    (ih : ∀ D' t' T', T' ≤ T + 2 ^ 24 → Node s D' (m / c) (c * M) (2 * E + 128 * uu * M) (c * A) (c * H) → (∀ p < 2 ^ s, Weak (slot t' (2 ^ s) p)) → (∀ p < 2 ^ s, ‖cv (slot t' (2 ^ s) p)‖ ≤ T') → ∀ st,
      ffSampling samp orig s (polySplitFft t' (s + 1)).1 (polySplitFft t' (s + 1)).2 (polySplitFft D' (s + 1)).1 (polySplitFft D' (s + 1)).2 (polySplitFft D' (s + 1)).1 st =
      ffSampling samp' orig s (polySplitFft t' (s + 1)).1 (polySplitFft t' (s + 1)).2 (polySplitFft D' (s + 1)).1 (polySplitFft D' (s + 1)).2 (polySplitFft D' (s + 1)).1 st ∧
      ∀ r, ffSampling samp' orig s (polySplitFft t' (s + 1)).1 (polySplitFft t' (s + 1)).2 (polySplitFft D' (s + 1)).1 (polySplitFft D' (s + 1)).2 (polySplitFft D' (s + 1)).1 st = some r →
        ∀ p < 2 ^ s, Weak (slot (polyMergeFft r.1 r.2.1 (s + 1)) (2 ^ s) p) ∧ val (slot D' (2 ^ s) p).1 * ‖cv (slot t' (2 ^ s) p) - cv (slot (polyMergeFft r.1 r.2.1 (s + 1)) (2 ^ s) p)‖ ^ 2 ≤ En)
    (N0 : Node s (polySplitFft D (s + 2)).1 (m / c) (c * M) (2 * E + 128 * uu * M) (c * A) (c * H))
    (t : List W) (wt : ∀ p < 2 ^ (s + 1), Weak (slot t (2 ^ (s + 1)) p)) (bt : ∀ p < 2 ^ (s + 1), ‖cv (slot t (2 ^ (s + 1)) p)‖ ≤ T) (st : τ) :
      ffSampling samp orig (s + 1) (polySplitFft t (s + 2)).1 (polySplitFft t (s + 2)).2 (polySplitFft D (s + 2)).1 (polySplitFft D (s + 2)).2 (polySplitFft D (s + 2)).1 st =
      ffSampling samp' orig (s + 1) (polySplitFft t (s + 2)).1 (polySplitFft t (s + 2)).2 (polySplitFft D (s + 2)).1 (polySplitFft D (s + 2)).2 (polySplitFft D (s + 2)).1 st ∧
      ∀ r, ffSampling samp' orig (s + 1) (polySplitFft t (s + 2)).1 (polySplitFft t (s + 2)).2 (polySplitFft D (s + 2)).1 (polySplitFft D (s + 2)).2 (polySplitFft D (s + 2)).1 st = some r →
        ∀ p < 2 ^ (s + 1), Weak (slot (polyMergeFft r.1 r.2.1 (s + 2)) (2 ^ (s + 1)) p) ∧
          val (slot D (2 ^ (s + 1)) p).1 * ‖cv (slot t (2 ^ (s + 1)) p) - cv (slot (polyMergeFft r.1 r.2.1 (s + 2)) (2 ^ (s + 1)) p)‖ ^ 2 ≤ 5 * En := by
  have u0 := uu_pos
  have two : 2 ^ (s + 1) = 2 * 2 ^ s := by rw [pow_succ, mul_comm]
  have i0 : ∀ p < 2 ^ s, 2 * p < 2 ^ (s + 1) := fun p hp => by omega
  have i1 : ∀ p < 2 ^ s, 2 * p + 1 < 2 ^ (s + 1) := fun p hp => by omega
  have T2 : T ≤ 2 ^ 30 := hT.trans (by norm_num)
  have m0 : 0 < m := by linarith
  have M0 : 0 < M := lt_of_lt_of_le m0 ((hN.lo 0 (by positivity)).trans (hN.hi 0 (by positivity)))
  have ρ0 : 0 ≤ ρ := le_trans (by positivity) hρ
  -- the target of the second half
  have S1 : ∀ p < 2 ^ s, Weak (slot (polySplitFft t (s + 2)).2 (2 ^ s) p) ∧ ‖cv (slot (polySplitFft t (s + 2)).2 (2 ^ s) p)‖ ≤ T + 2 ^ 24 := fun p hp => by
    have h0 := bt _ (i0 p hp)
    have h1 := bt _ (i1 p hp)
    have T0 := (norm_nonneg _).trans h0
    have sp := split_slot (slot t (2 ^ (s + 1)) (2 * p)) (slot t (2 ^ (s + 1)) (2 * p + 1)) (gmConj (2 ^ (s + 1) + p)) (gmE (s + 1) p) (gmE_norm _ _) (gmConj_close (s + 1) (by omega) p (by omega))
      (wt _ (i0 p hp)) (wt _ (i1 p hp)) (h0.trans (T2.trans (by norm_num))) (h1.trans (T2.trans (by norm_num)))
    rw [(split_slots s t p hp).2]
    refine ⟨sp.2.2.1, ?_⟩
    have c := sp.2.2.2
    generalize cv (hv (cMul (cSub (slot t (2 ^ (s + 1)) (2 * p)) (slot t (2 ^ (s + 1)) (2 * p + 1))) (gmConj (2 ^ (s + 1) + p)))) = y at *
    have nd := norm_sub_le (cv (slot t (2 ^ (s + 1)) (2 * p))) (cv (slot t (2 ^ (s + 1)) (2 * p + 1)))
    generalize cv (slot t (2 ^ (s + 1)) (2 * p)) - cv (slot t (2 ^ (s + 1)) (2 * p + 1)) = δ at *
    have nn := norm_add_le (y - δ / 2 * (starRingEnd ℂ) (gmE (s + 1) p)) (δ / 2 * (starRingEnd ℂ) (gmE (s + 1) p))
    rw [sub_add_cancel, norm_mul, RCLike.norm_conj, gmE_norm, mul_one, norm_div] at nn
    have et : eta ≤ uu := eta_tiny.trans (by have := mul_le_mul_of_nonneg_left (show (1 : ℝ) / 2 ^ 100 ≤ 1 by norm_num) u0.le; linarith)
    have un := uu_num
    have k := mul_le_mul_of_nonneg_left (show ‖δ‖ ≤ 2 ^ 31 by norm_num at *; linarith) u0.le
    rw [un] at k et c
    norm_num at *
    linarith
  have r1 := ih _ _ (T + 2 ^ 24) le_rfl N1 (fun p hp => (S1 p hp).1) (fun p hp => (S1 p hp).2) st
  -- the target of the first half
  have S2 : ∀ z : List W, (∀ p < 2 ^ s, Weak (slot z (2 ^ s) p) ∧ val (slot (polyLdlFft (polySplitFft D (s + 2)).1 (polySplitFft D (s + 2)).2 (polySplitFft D (s + 2)).1 (s + 1)).2 (2 ^ s) p).1 *
      ‖cv (slot (polySplitFft t (s + 2)).2 (2 ^ s) p) - cv (slot z (2 ^ s) p)‖ ^ 2 ≤ En) → ∀ p (hp : p < 2 ^ s), _ := fun z hz p hp =>
    samp_first (slot t (2 ^ (s + 1)) (2 * p)) (slot t (2 ^ (s + 1)) (2 * p + 1)) (slot z (2 ^ s) p) (slot D (2 ^ (s + 1)) (2 * p)) (slot D (2 ^ (s + 1)) (2 * p + 1)) (gmConj (2 ^ (s + 1) + p)) (gmE (s + 1) p)
      (gmE_norm _ _) (gmConj_close (s + 1) (by omega) p (by omega)) (wt _ (i0 p hp)) (wt _ (i1 p hp)) (hz p hp).1 T T2 (bt _ (i0 p hp)) (bt _ (i1 p hp)) (hN.weak _ (i0 p hp)) (hN.weak _ (i1 p hp))
      (hm.trans (hN.lo _ (i0 p hp))) (hm.trans (hN.lo _ (i1 p hp))) ((hN.hi _ (i0 p hp)).trans hM) ((hN.hi _ (i1 p hp)).trans hM) ((hN.im _ (i0 p hp)).trans hE) ((hN.im _ (i1 p hp)).trans hE)
      _ _ _ _ _ (slot (polyAdd (polySplitFft t (s + 2)).1 (polyMulFft (polyLdlFft (polySplitFft D (s + 2)).1 (polySplitFft D (s + 2)).2 (polySplitFft D (s + 2)).1 (s + 1)).1
        (polySub (polySplitFft t (s + 2)).2 z (s + 1)) (s + 1)) (s + 1)) (2 ^ s) p) _ En rfl rfl rfl rfl (split_slots s t p hp).2 (by
          rw [(polyAdd_slot s _ _).2 p hp, polyMul_slot s _ _ p hp, polySub_slot s _ _ p hp, ldl_slot1 s _ _ _ p hp, (split_slots s t p hp).1, (split_slots s D p hp).1, (split_slots s D p hp).2])
      (mc.trans (N1.lo p hp)) hEn2 (hz p hp).2
  have K : ∀ p < 2 ^ s, 999 / 1000 * ((val (slot D (2 ^ (s + 1)) (2 * p)).1 + val (slot D (2 ^ (s + 1)) (2 * p + 1)).1) / 2) ≤ val (slot (polySplitFft D (s + 2)).1 (2 ^ s) p).1 ∧
      999 / 1000 * (val (slot D (2 ^ (s + 1)) (2 * p)).1 * val (slot D (2 ^ (s + 1)) (2 * p + 1)).1 / ((val (slot D (2 ^ (s + 1)) (2 * p)).1 + val (slot D (2 ^ (s + 1)) (2 * p + 1)).1) / 2)) ≤
      val (slot (polyLdlFft (polySplitFft D (s + 2)).1 (polySplitFft D (s + 2)).2 (polySplitFft D (s + 2)).1 (s + 1)).2 (2 ^ s) p).1 := fun p hp => by
    have key := node_slot (slot D (2 ^ (s + 1)) (2 * p)) (slot D (2 ^ (s + 1)) (2 * p + 1)) (gmConj (2 ^ (s + 1) + p)) (gmE (s + 1) p) (gmE_norm _ _)
      (gmConj_close (s + 1) (by omega) p (by omega)) (hN.weak _ (i0 p hp)) (hN.weak _ (i1 p hp)) m M E (by linarith) (hM.trans (by norm_num)) E0 (by linarith) (hN.lo _ (i0 p hp)) (hN.lo _ (i1 p hp)) (hN.hi _ (i0 p hp)) (hN.hi _ (i1 p hp))
      (hN.im _ (i0 p hp)) (hN.im _ (i1 p hp)) _ _ _ rfl rfl rfl
    rw [ldl_slot s _ _ _ p hp, (split_slots s D p hp).1, (split_slots s D p hp).2]
    have a := hN.lo _ (i0 p hp)
    have b := hN.lo _ (i1 p hp)
    obtain ⟨-, -, k1, -, k2, -⟩ := key
    generalize val (slot D (2 ^ (s + 1)) (2 * p)).1 = u at *
    generalize val (slot D (2 ^ (s + 1)) (2 * p + 1)).1 = v at *
    have uv : 0 < u * v / ((u + v) / 2) := by
      have : 0 < u := by linarith
      have : 0 < v := by linarith
      positivity
    have sb := step_bound u v m E (128 * uu * M) ρ m0 a b (by positivity) hρ
    have em : 128 * uu * M ≤ ρ * m := by
      rw [← div_le_iff₀ m0]; refine le_trans ?_ hρ; have : 0 ≤ E ^ 2 / m ^ 2 := by positivity
      linarith
    have em2 : ρ * m ≤ 1 / 1000 * m := mul_le_mul_of_nonneg_right hρ2 m0.le
    have em3 := mul_le_mul_of_nonneg_right hρ2 uv.le
    have k1 := (abs_le.1 k1).1
    have k2 := (abs_le.1 k2).1
    constructor <;> linarith
  have r0 := fun z hz => ih (polySplitFft D (s + 2)).1 (polyAdd (polySplitFft t (s + 2)).1 (polyMulFft (polyLdlFft (polySplitFft D (s + 2)).1 (polySplitFft D (s + 2)).2 (polySplitFft D (s + 2)).1 (s + 1)).1
        (polySub (polySplitFft t (s + 2)).2 z (s + 1)) (s + 1)) (s + 1)) (T + 2 ^ 24) le_rfl N0 (fun p hp => (S2 z hz p hp).2.2.1) (fun p hp => (S2 z hz p hp).2.2.2.1)
  unfold ffSampling
  dsimp only
  rw [r1.1]
  cases q : ffSampling samp' orig s (polySplitFft (polySplitFft t (s + 2)).2 (s + 1)).1 (polySplitFft (polySplitFft t (s + 2)).2 (s + 1)).2
    (polySplitFft (polyLdlFft (polySplitFft D (s + 2)).1 (polySplitFft D (s + 2)).2 (polySplitFft D (s + 2)).1 (s + 1)).2 (s + 1)).1
    (polySplitFft (polyLdlFft (polySplitFft D (s + 2)).1 (polySplitFft D (s + 2)).2 (polySplitFft D (s + 2)).1 (s + 1)).2 (s + 1)).2
    (polySplitFft (polyLdlFft (polySplitFft D (s + 2)).1 (polySplitFft D (s + 2)).2 (polySplitFft D (s + 2)).1 (s + 1)).2 (s + 1)).1 st with
  | none => exact ⟨rfl, fun r h => by cases h⟩
  | some a =>
    dsimp only
    have hz := r1.2 a q
    have R0 := r0 _ hz a.2.2
    refine ⟨by rw [R0.1], fun r hr => ?_⟩
    split at hr
    · cases hr
    · rename_i b e
      cases hr
      have hb := R0.2 b e
      dsimp only
      have fin : ∀ p < 2 ^ s, Weak (cAdd (slot (polyMergeFft b.1 b.2.1 (s + 1)) (2 ^ s) p) (cMul (slot (polyMergeFft a.1 a.2.1 (s + 1)) (2 ^ s) p) (gm (2 ^ (s + 1) + p)))) ∧
          Weak (cSub (slot (polyMergeFft b.1 b.2.1 (s + 1)) (2 ^ s) p) (cMul (slot (polyMergeFft a.1 a.2.1 (s + 1)) (2 ^ s) p) (gm (2 ^ (s + 1) + p)))) ∧
          val (slot D (2 ^ (s + 1)) (2 * p)).1 * ‖cv (slot t (2 ^ (s + 1)) (2 * p)) - cv (cAdd (slot (polyMergeFft b.1 b.2.1 (s + 1)) (2 ^ s) p) (cMul (slot (polyMergeFft a.1 a.2.1 (s + 1)) (2 ^ s) p) (gm (2 ^ (s + 1) + p))))‖ ^ 2 ≤ 5 * En ∧
          val (slot D (2 ^ (s + 1)) (2 * p + 1)).1 * ‖cv (slot t (2 ^ (s + 1)) (2 * p + 1)) - cv (cSub (slot (polyMergeFft b.1 b.2.1 (s + 1)) (2 ^ s) p) (cMul (slot (polyMergeFft a.1 a.2.1 (s + 1)) (2 ^ s) p) (gm (2 ^ (s + 1) + p))))‖ ^ 2 ≤ 5 * En := fun p hp => by
        obtain ⟨-, -, -, f4, f5, f6, l, f7, f8, f9⟩ := S2 _ hz p hp
        exact samp_second (slot (polyMergeFft b.1 b.2.1 (s + 1)) (2 ^ s) p) (slot (polyMergeFft a.1 a.2.1 (s + 1)) (2 ^ s) p) (gm (2 ^ (s + 1) + p)) (gmE (s + 1) p) _ _ _ _ l (gmE_norm _ _)
          (gm_close (s + 1) (by omega) p (by omega)).2 (hb p hp).1 T T2 f4 f5 f6 f9 _ _ _ _ En (hm.trans (hN.lo _ (i0 p hp))) (hm.trans (hN.lo _ (i1 p hp))) ((hN.hi _ (i0 p hp)).trans hM) ((hN.hi _ (i1 p hp)).trans hM)
          f7 f8 (K p hp).1 (K p hp).2 hEn hEn2 (hz p hp).2 (hb p hp).2
      intro p hp
      obtain ⟨j, rfl | rfl⟩ : ∃ j, p = 2 * j ∨ p = 2 * j + 1 := ⟨p / 2, by omega⟩
      · have hj : j < 2 ^ s := by omega
        rw [(merge_slots s _ _ j hj).1]
        exact ⟨(fin j hj).1, (fin j hj).2.2.1⟩
      · have hj : j < 2 ^ s := by omega
        rw [(merge_slots s _ _ j hj).2]
        exact ⟨(fin j hj).2.1, (fin j hj).2.2.2⟩

/-- The tree below a diagonal element: samplers that agree where `isigma` belongs to a leaf within the bounds and the centre is in range give the same result, close to the target. -/
theorem tree2 {τ : Type} (samp samp' : Samp τ) (R : W → Prop) (hag : ∀ st mu is, R is → Centre mu → samp st mu is = samp' st mu is)
    (near : ∀ st mu is r, R is → Centre mu → samp' st mu is = some r → |(r.1 : ℝ) - val mu| ≤ 20) (orig : ℕ) (EH ρ c mL MH e : ℝ) (hmL : 16 ≤ mL) (MH0 : 0 ≤ MH) (hMH : MH ≤ 2 ^ 24) (hEH0 : 0 ≤ EH) (hEH : EH ≤ 1)
    (he : e = 128 * uu * MH) (hρ : (EH / 2) ^ 2 / mL ^ 2 + e / mL ≤ ρ) (hρ2 : ρ ≤ 1 / 1000) (hc : c = 1 + 2 * ρ) :
    ∀ (s : ℕ) (_ : s ≤ 9) (D : List W) (m M E A H : ℝ) (_ : 0 ≤ E) (_ : Node s D m M E A H) (_ : mL * c ^ s ≤ m) (_ : M * c ^ s ≤ MH) (_ : 2 ^ s * (E + e) ≤ EH)
      (_ : ∀ x : W, 0 < val x → 1 / val x ≤ c ^ s * H → val x ≤ c ^ s * A → R (mul (sqrt x) invSigma[orig]!)) (_ : c ^ s * A ≤ 16823) (t : List W) (T : ℝ) (_ : T + s * 2 ^ 24 ≤ 2 ^ 30)
      (_ : ∀ p < 2 ^ s, Weak (slot t (2 ^ s) p)) (_ : ∀ p < 2 ^ s, ‖cv (slot t (2 ^ s) p)‖ ≤ T) (st : τ),
      ffSampling samp orig s (polySplitFft t (s + 1)).1 (polySplitFft t (s + 1)).2 (polySplitFft D (s + 1)).1 (polySplitFft D (s + 1)).2 (polySplitFft D (s + 1)).1 st =
      ffSampling samp' orig s (polySplitFft t (s + 1)).1 (polySplitFft t (s + 1)).2 (polySplitFft D (s + 1)).1 (polySplitFft D (s + 1)).2 (polySplitFft D (s + 1)).1 st ∧
      ∀ r, ffSampling samp' orig s (polySplitFft t (s + 1)).1 (polySplitFft t (s + 1)).2 (polySplitFft D (s + 1)).1 (polySplitFft D (s + 1)).2 (polySplitFft D (s + 1)).1 st = some r →
        ∀ p < 2 ^ s, Weak (slot (polyMergeFft r.1 r.2.1 (s + 1)) (2 ^ s) p) ∧ val (slot D (2 ^ s) p).1 * ‖cv (slot t (2 ^ s) p) - cv (slot (polyMergeFft r.1 r.2.1 (s + 1)) (2 ^ s) p)‖ ^ 2 ≤ 5 ^ s * (800 * 16823) := by
  have u0 := uu_pos
  intro s
  induction s with
  | zero =>
    intro _ D m M E A H E0 hN hm hM hE hR hA t T hT wt bt st
    have n1 := hN.lo 0 (by norm_num)
    have n2 := hN.mean
    have n3 := hN.inv
    have w := wt 0 (by norm_num)
    have b := bt 0 (by norm_num)
    simp only [pow_zero, mul_one, one_mul, Finset.sum_range_one, Nat.cast_zero, zero_mul, add_zero] at n1 n2 n3 hm hM hR hA hT w b ⊢
    have e0 : (slot D 1 0).1 = D[0]! := rfl
    have e1 : slot t 1 0 = (t[0]!, t[1]!) := rfl
    rw [e0] at n1 n2 n3
    rw [e1] at w b
    have g : (polySplitFft D (0 + 1)).1[0]! = D[0]! := by unfold polySplitFft; dsimp only; rw [if_pos rfl]; rfl
    have g0 : (polySplitFft t (0 + 1)).1[0]! = t[0]! := by unfold polySplitFft; dsimp only; rw [if_pos rfl]; rfl
    have g1 : (polySplitFft t (0 + 1)).2[0]! = t[1]! := by unfold polySplitFft; dsimp only; rw [if_pos rfl]; rfl
    unfold ffSampling
    dsimp only
    rw [g, g0, g1]
    have r := hR D[0]! (by linarith) n3 n2
    have m0 : |val t[0]!| ≤ 2 ^ 30 := (Complex.abs_re_le_norm (cv (t[0]!, t[1]!))).trans (b.trans hT)
    have m1 : |val t[1]!| ≤ 2 ^ 30 := (Complex.abs_im_le_norm (cv (t[0]!, t[1]!))).trans (b.trans hT)
    have c0 : Centre t[0]! := ⟨w.1, lt_of_le_of_lt m0 (by norm_num)⟩
    have c1 : Centre t[1]! := ⟨w.2, lt_of_le_of_lt m1 (by norm_num)⟩
    rw [hag st _ _ r c0]
    cases q : samp' st t[0]! (mul (sqrt D[0]!) invSigma[orig]!) with
    | none => exact ⟨rfl, fun r h => by cases h⟩
    | some a =>
      dsimp only
      rw [hag a.2 _ _ r c1]
      refine ⟨rfl, fun x hx => ?_⟩
      cases q2 : samp' a.2 t[1]! (mul (sqrt D[0]!) invSigma[orig]!) with
      | none => rw [q2] at hx; cases hx
      | some b =>
        rw [q2] at hx
        cases hx
        intro p hp
        obtain rfl : p = 0 := by omega
        have ez : slot (polyMergeFft [ofInt a.1] [ofInt b.1] (0 + 1)) 1 0 = (ofInt a.1, ofInt b.1) := by unfold polyMergeFft; dsimp only; rw [if_pos rfl]; rfl
        rw [ez, e0, e1]
        exact leaf_energy _ _ _ _ _ m0 m1 (near _ _ _ _ r c0 q) (near _ _ _ _ r c1 q2) (by linarith) (by linarith)
  | succ s ih =>
    intro hs D m M E A H E0 hN hm hM hE hR hA t T hT wt bt st
    have e0 : 0 ≤ e := by rw [he]; positivity
    have ρ0 : 0 ≤ ρ := le_trans (by positivity) hρ
    have c1 : 1 ≤ c := by linarith
    have c0 : 0 < c := by linarith
    have cs : 1 ≤ c ^ (s + 1) := one_le_pow₀ c1
    have cs' : 1 ≤ c ^ s := one_le_pow₀ c1
    have mm : mL ≤ m := le_trans (by nlinarith) hm
    have n1 := (hN.lo 0 (by positivity)).trans (hN.hi 0 (by positivity))
    have M0 : 0 < M := by linarith
    have MM : M ≤ MH := le_trans (by nlinarith) hM
    have E2 : E ≤ EH / 2 := by
      have : (2 : ℝ) * (E + e) ≤ 2 ^ (s + 1) * (E + e) := by
        refine mul_le_mul_of_nonneg_right ?_ (by positivity)
        rw [pow_succ]; have := one_le_pow₀ (show (1 : ℝ) ≤ 2 by norm_num) (n := s); linarith
      linarith
    have em : 128 * uu * M ≤ e := by rw [he]; exact mul_le_mul_of_nonneg_left MM (by positivity)
    have m0 : 0 < m := by linarith
    have hρ' : E ^ 2 / m ^ 2 + 128 * uu * M / m ≤ ρ := by
      refine le_trans (add_le_add ?_ ?_) hρ
      · exact div_le_div₀ (by positivity) (pow_le_pow_left₀ E0 E2 2) (by positivity) (pow_le_pow_left₀ (by linarith) mm 2)
      · exact div_le_div₀ e0 em (by linarith) mm
    obtain ⟨N0, N1⟩ := node_step s (by omega) D m M E A H ρ c (by linarith) (MM.trans (hMH.trans (by norm_num))) E0 (by linarith) hρ' (by linarith) hc hN
    have k1 : mL * c ^ s ≤ m / c := by rw [le_div_iff₀ c0, mul_assoc, ← pow_succ]; exact hm
    have k2 : c * M * c ^ s ≤ MH := by rw [show c * M * c ^ s = M * c ^ (s + 1) by rw [pow_succ]; ring]; exact hM
    have k3 : 2 ^ s * (2 * E + 128 * uu * M + e) ≤ EH := by
      refine le_trans ?_ hE
      rw [show (2 : ℝ) ^ (s + 1) * (E + e) = 2 ^ s * (2 * E + e + e) by rw [pow_succ]; ring]
      exact mul_le_mul_of_nonneg_left (by linarith) (by positivity)
    have k4 : ∀ x : W, 0 < val x → 1 / val x ≤ c ^ s * (c * H) → val x ≤ c ^ s * (c * A) → R (mul (sqrt x) invSigma[orig]!) := fun x a b d => by
      refine hR x a ?_ ?_
      · rw [pow_succ, mul_assoc]; exact b
      · rw [pow_succ, mul_assoc]; exact d
    have k5 : c ^ s * (c * A) ≤ 16823 := by rw [← mul_assoc, ← pow_succ]; exact hA
    have E1 : 0 ≤ 2 * E + 128 * uu * M := by positivity
    have s0 : (0 : ℝ) ≤ s := Nat.cast_nonneg s
    rw [Nat.cast_succ, add_mul, one_mul] at hT
    have p8 : (5 : ℝ) ^ s ≤ 5 ^ 8 := pow_le_pow_right₀ (by norm_num) (by omega)
    have p1 : (1 : ℝ) ≤ 5 ^ s := one_le_pow₀ (by norm_num)
    have := tree2_step samp samp' orig s (by omega) D m M E A H ρ c (by linarith) (MM.trans hMH) E0 (by linarith) hρ' hρ2 (by nlinarith) hN N1 T (5 ^ s * (800 * 16823)) (by nlinarith) (by linarith) (by norm_num at *; linarith)
      (fun D' t' T' hT' hN' wt' bt' st' => ih (by omega) D' _ _ _ _ _ E1 hN' k1 k2 k3 k4 k5 t' T' (by linarith) wt' bt' st') N0 t wt bt st
    refine ⟨this.1, fun r hr p hp => ?_⟩
    have h := this.2 r hr p hp
    refine ⟨h.1, h.2.trans (le_of_eq ?_)⟩
    rw [pow_succ]; ring

end Verif.CRef.Fft
