import Verif.CRef.SignDynSpec
import Verif.CRef.FftInt
import Verif.CRef.SignSamplerMain

/-! # The sampling tree returns transforms of the drawn integers -/

namespace Verif.CRef.SignDyn

open Verif.Ring Verif.CRef.Fpr Verif.CRef.Fft Verif.CRef.SignSampler

theorem interleave_length (n : ℕ) (a b : List ℤ) : (interleave n a b).length = 2 * n := by unfold interleave; rw [List.length_map, List.length_range]

theorem interleave_get (n : ℕ) (a b : List ℤ) (j : ℕ) (hj : j < n) (c : ℕ) (hc : c < 2) : (interleave n a b).getD (2 * j + c) 0 = if c = 0 then a.getD j 0 else b.getD j 0 := by
  unfold interleave
  rw [List.getD_eq_getElem?_getD, List.getElem?_map, List.getElem?_range (by omega)]
  simp only [Option.map_some, Option.getD_some]
  rw [show (2 * j + c) % 2 = c by omega, show (2 * j + c) / 2 = j by omega]

theorem arrange_length : ∀ (k : ℕ) (l : List ℤ), (arrange k l).1.length = 2 ^ k ∧ (arrange k l).2.length = 2 ^ k
  | 0, _ => ⟨rfl, rfl⟩
  | k + 1, l => by unfold arrange; dsimp only; rw [interleave_length, interleave_length, pow_succ]; omega

theorem getD_bound (l : List ℤ) (Z : ℤ) (h0 : 0 ≤ Z) (h : ∀ x ∈ l, |x| ≤ Z) (j : ℕ) : |l.getD j 0| ≤ Z := by
  rw [List.getD_eq_getElem?_getD]
  rcases hx : l[j]? with _ | x
  · simpa using h0
  · exact h x (List.mem_of_getElem? hx)

theorem interleave_bound (n : ℕ) (a b : List ℤ) (Z : ℤ) (h0 : 0 ≤ Z) (ha : ∀ x ∈ a, |x| ≤ Z) (hb : ∀ x ∈ b, |x| ≤ Z) : ∀ x ∈ interleave n a b, |x| ≤ Z := by
  intro x hx
  unfold interleave at hx
  obtain ⟨j, _, rfl⟩ := List.mem_map.1 hx
  split
  · exact getD_bound a Z h0 ha _
  · exact getD_bound b Z h0 hb _

theorem arrange_bound (Z : ℤ) (h0 : 0 ≤ Z) : ∀ (k : ℕ) (l : List ℤ), (∀ x ∈ l, |x| ≤ Z) → (∀ x ∈ (arrange k l).1, |x| ≤ Z) ∧ ∀ x ∈ (arrange k l).2, |x| ≤ Z
  | 0, l, h => by
    unfold arrange
    refine ⟨fun x hx => ?_, fun x hx => ?_⟩
    · rw [List.mem_singleton.1 hx]; exact getD_bound l Z h0 h _
    · rw [List.mem_singleton.1 hx]; exact getD_bound l Z h0 h _
  | k + 1, l, h => by
    have r := arrange_bound Z h0 k (l.take (2 ^ (k + 1))) fun x hx => h x (List.mem_of_mem_take hx)
    have u := arrange_bound Z h0 k (l.drop (2 ^ (k + 1))) fun x hx => h x (List.mem_of_mem_drop hx)
    unfold arrange
    exact ⟨interleave_bound _ _ _ Z h0 u.1 u.2, interleave_bound _ _ _ Z h0 r.1 r.2⟩

/-- The array is the transform of an integer polynomial with coefficients at most `Z`. -/
def IntFft (Z : ℝ) : ℕ → List W → List ℤ → Prop
  | 0, F, a => F = [ofInt (a.getD 0 0)]
  | s + 1, F, a => Ap s F a (8 * s) (2 ^ (s + 1) * Z)

theorem merge_int (Z : ℕ) (hZ : 1 ≤ Z) (hZ2 : Z ≤ 2 ^ 50) (k : ℕ) (hk : k ≤ 9) (F0 F1 : List W) (a b : List ℤ) (la : a.length = 2 ^ k) (lb : b.length = 2 ^ k) (ba : ∀ x ∈ a, |x| ≤ Z) (bb : ∀ x ∈ b, |x| ≤ Z)
    (h0 : IntFft Z k F0 a) (h1 : IntFft Z k F1 b) : IntFft Z (k + 1) (polyMergeFft F0 F1 (k + 1)) (interleave (2 ^ k) a b) := by
  have li : (interleave (2 ^ k) a b).length = 2 ^ (k + 1) := by rw [interleave_length, pow_succ]; ring
  have ib := interleave_bound (2 ^ k) a b Z (by positivity) ba bb
  have gb : ∀ j, |((interleave (2 ^ k) a b).getD j 0 : ℝ)| ≤ Z := fun j => by exact_mod_cast getD_bound _ Z (by positivity) ib j
  have Z1 : (1 : ℝ) ≤ Z := by exact_mod_cast hZ
  have Z2 : (Z : ℝ) ≤ 2 ^ 50 := by exact_mod_cast hZ2
  show Ap k _ _ _ _
  refine ⟨?_, li, ?_, fun p hp => pev_le _ _ Z (fun j _ => gb j) _ (root_norm _ _)⟩
  · unfold polyMergeFft
    dsimp only
    split
    · next h => have : k = 0 := by omega
                subst this; rfl
    · unfold ofSlots; rw [List.length_map, List.length_range]
  · cases k with
    | zero =>
      have e0 : F0 = [ofInt (a.getD 0 0)] := h0
      have e1 : F1 = [ofInt (b.getD 0 0)] := h1
      have g0 := interleave_get (2 ^ 0) a b 0 (by norm_num) 0 (by norm_num)
      have g1 := interleave_get (2 ^ 0) a b 0 (by norm_num) 1 (by norm_num)
      rw [if_pos rfl] at g0
      rw [if_neg (by norm_num)] at g1
      intro p hp
      have : p = 0 := by simpa using hp
      subst this
      have hs : slot (polyMergeFft F0 F1 (0 + 1)) (2 ^ 0) 0 = (ofInt (a.getD 0 0), ofInt (b.getD 0 0)) := by rw [e0, e1]; rfl
      rw [hs]
      have a0 : |a.getD 0 0| < 2 ^ 53 := (getD_bound a Z (by positivity) ba 0).trans_lt (by exact_mod_cast (show Z < 2 ^ 53 by omega))
      have b0 : |b.getD 0 0| < 2 ^ 53 := (getD_bound b Z (by positivity) bb 0).trans_lt (by exact_mod_cast (show Z < 2 ^ 53 by omega))
      obtain ⟨o1, v1⟩ := val_ofInt _ a0
      obtain ⟨o2, v2⟩ := val_ofInt _ b0
      refine ⟨⟨o1, o2⟩, ?_⟩
      have := rfft_approx 0 (by norm_num) (fun _ => (ofInt (a.getD 0 0), ofInt (b.getD 0 0))) (fun j => ((interleave (2 ^ 0) a b).getD j 0 : ℝ)) Z ?_ (fun j _ => gb j) (range_eta _ (inRange_of _ Z1 (Z2.trans (by norm_num)))) ?_ 0 (by norm_num)
      · refine this.2.trans (le_of_eq ?_)
        push_cast; ring
      · intro j hj
        have : j = 0 := by simpa using hj
        subst this
        refine ⟨⟨o1, o2⟩, ?_, ?_⟩
        · rw [v1]; exact_mod_cast g0.symm
        · rw [v2]; exact_mod_cast g1.symm
      · have := range_big _ (inRange_of _ Z1 (Z2.trans (by norm_num)))
        norm_num at *; linarith
    | succ s =>
      obtain ⟨f1, f2, f3, f4⟩ : Ap s F0 a (8 * s) (2 ^ (s + 1) * Z) := h0
      obtain ⟨g1, g2, g3, g4⟩ : Ap s F1 b (8 * s) (2 ^ (s + 1) * Z) := h1
      have P1 : (1 : ℝ) ≤ 2 ^ (s + 1) * Z := one_le_mul_of_one_le_of_one_le (one_le_pow₀ (by norm_num)) Z1
      have sp : (2 : ℝ) ^ (s + 1) ≤ 2 ^ 9 := pow_le_pow_right₀ (by norm_num) (by omega)
      have P2 : (2 : ℝ) ^ (s + 1) * Z ≤ 2 ^ 59 := (mul_le_mul sp Z2 (by linarith) (by norm_num)).trans (by norm_num)
      have rg := inRange_of _ P1 (P2.trans (by norm_num))
      have s8 : (s : ℝ) ≤ 8 := by exact_mod_cast (show s ≤ 8 by omega)
      have ev0 : ∀ p, pev (s + 1) (fun j => ((interleave (2 ^ (s + 1)) a b).getD (2 * j) 0 : ℝ)) (root (s + 1) p) = pev (s + 1) (fun j => (a.getD j 0 : ℝ)) (root (s + 1) p) := fun p =>
        pev_congr _ _ _ _ fun j hj => by
          have := interleave_get (2 ^ (s + 1)) a b j hj 0 (by norm_num); rw [if_pos rfl, add_zero] at this
          exact_mod_cast this
      have ev1 : ∀ p, pev (s + 1) (fun j => ((interleave (2 ^ (s + 1)) a b).getD (2 * j + 1) 0 : ℝ)) (root (s + 1) p) = pev (s + 1) (fun j => (b.getD j 0 : ℝ)) (root (s + 1) p) := fun p =>
        pev_congr _ _ _ _ fun j hj => by
          have := interleave_get (2 ^ (s + 1)) a b j hj 1 (by norm_num); rw [if_neg (by norm_num)] at this
          exact_mod_cast this
      have key := merge_approx s (by omega) (slot F0 (2 ^ s)) (slot F1 (2 ^ s)) (fun j => ((interleave (2 ^ (s + 1)) a b).getD j 0 : ℝ)) (8 * s * (uu * (2 ^ (s + 1) * Z))) (2 ^ (s + 1) * Z)
        (fun p hp => by rw [ev0]; exact f3 p hp) (fun p hp => by rw [ev1]; exact g3 p hp) (fun p hp => by rw [ev0]; exact f4 p hp) (fun p hp => by rw [ev1]; exact g4 p hp) ?_ (range_eta _ rg) ?_
      · intro p hp
        have hsl : slot (polyMergeFft F0 F1 (s + 1 + 1)) (2 ^ (s + 1)) p = if p % 2 = 0 then cAdd (slot F0 (2 ^ s) (p / 2)) (cMul (slot F1 (2 ^ s) (p / 2)) (gm (2 ^ (s + 1) + p / 2)))
            else cSub (slot F0 (2 ^ s) (p / 2)) (cMul (slot F1 (2 ^ s) (p / 2)) (gm (2 ^ (s + 1) + p / 2))) := by
          have e1 : 2 ^ (s + 1 + 1) / 2 = 2 ^ (s + 1) := by rw [pow_succ 2 (s + 1)]; omega
          have e2 : 2 ^ (s + 1) / 2 = 2 ^ s := by rw [pow_succ 2 s]; omega
          unfold polyMergeFft
          dsimp only
          rw [if_neg (by omega), (ofSlots_slot (s + 1) _).2 p hp, e1, e2, add_comm (p / 2)]
        rw [hsl]
        obtain ⟨k1, k2⟩ := key p hp
        refine ⟨k1, k2.trans (le_of_eq ?_)⟩
        push_cast
        rw [pow_succ (2 : ℝ) (s + 1)]; ring
      · have uM : uu * (2 ^ (s + 1) * (Z : ℝ)) = 2 ^ (s + 1) * Z / 2 ^ 53 := by unfold uu; ring
        rw [uM]
        have := mul_le_mul_of_nonneg_right s8 (show (0 : ℝ) ≤ 2 ^ (s + 1) * Z by linarith)
        norm_num at *; linarith
      · have := range_big _ rg
        norm_num at *; linarith

/-- The tree: whatever the targets and the Gram matrix hold, the result is the transform of the drawn integers. -/
theorem tree_int {σ : Type} (samp : Samp σ) (orig : ℕ) (Z : ℕ) (hZ : 1 ≤ Z) (hZ2 : Z ≤ 2 ^ 50) : ∀ (k : ℕ), k ≤ 10 → ∀ (t0 t1 g00 g01 g11 : List W) (st : σ × List ℤ) (r : List W × List W × (σ × List ℤ)),
    ffSampling (logged samp) orig k t0 t1 g00 g01 g11 st = some r → ∃ l, r.2.2.2 = st.2 ++ l ∧ l.length = 2 ^ (k + 1) ∧
      ((∀ x ∈ l, |x| ≤ Z) → IntFft Z k r.1 (arrange k l).1 ∧ IntFft Z k r.2.1 (arrange k l).2) := by
  intro k
  induction k with
  | zero =>
    intro _ t0 t1 g00 g01 g11 st r h
    unfold ffSampling at h
    dsimp only at h
    split at h
    · cases h
    next a ha =>
      split at h
      · cases h
      next b hb =>
        cases h
        unfold logged at ha hb
        obtain ⟨a', ha', rfl⟩ := Option.map_eq_some_iff.1 ha
        obtain ⟨b', hb', rfl⟩ := Option.map_eq_some_iff.1 hb
        exact ⟨[a'.1, b'.1], by simp, rfl, fun _ => ⟨rfl, rfl⟩⟩
  | succ k ih =>
    intro hk t0 t1 g00 g01 g11 st r h
    unfold ffSampling at h
    dsimp only at h
    split at h
    · cases h
    next a ha =>
      split at h
      · cases h
      next b hb =>
        cases h
        obtain ⟨l1, e1, n1, p1⟩ := ih (by omega) _ _ _ _ _ _ _ ha
        obtain ⟨l2, e2, n2, p2⟩ := ih (by omega) _ _ _ _ _ _ _ hb
        refine ⟨l1 ++ l2, by rw [e2, e1, List.append_assoc], by rw [List.length_append, n1, n2, pow_succ 2 (k + 1)]; ring, fun hl => ?_⟩
        have b1 : ∀ x ∈ l1, |x| ≤ (Z : ℤ) := fun x hx => hl x (List.mem_append_left _ hx)
        have b2 : ∀ x ∈ l2, |x| ≤ (Z : ℤ) := fun x hx => hl x (List.mem_append_right _ hx)
        have t : (l1 ++ l2).take (2 ^ (k + 1)) = l1 := by rw [← n1]; exact List.take_left
        have d : (l1 ++ l2).drop (2 ^ (k + 1)) = l2 := by rw [← n1]; exact List.drop_left
        unfold arrange
        dsimp only
        rw [t, d]
        have A1 := arrange_bound Z (by positivity) k l1 b1
        have A2 := arrange_bound Z (by positivity) k l2 b2
        have L1 := arrange_length k l1
        have L2 := arrange_length k l2
        exact ⟨merge_int Z hZ hZ2 k (by omega) _ _ _ _ L2.1 L2.2 A2.1 A2.2 (p2 b2).1 (p2 b2).2, merge_int Z hZ hZ2 k (by omega) _ _ _ _ L1.1 L1.2 A1.1 A1.2 (p1 b1).1 (p1 b1).2⟩

/-- Recording changes nothing else. -/
theorem tree_logged {σ : Type} (samp : Samp σ) (orig : ℕ) : ∀ (k : ℕ) (t0 t1 g00 g01 g11 : List W) (st : σ) (l : List ℤ),
    (ffSampling (logged samp) orig k t0 t1 g00 g01 g11 (st, l)).map (fun r => (r.1, r.2.1, r.2.2.1)) = ffSampling samp orig k t0 t1 g00 g01 g11 st := by
  intro k
  induction k with
  | zero =>
    intro t0 t1 g00 g01 g11 st l
    unfold ffSampling logged
    dsimp only
    rcases samp st t0[0]! (mul (sqrt g00[0]!) invSigma[orig]!) with _ | a
    · rfl
    · dsimp only [Option.map_some]
      rcases samp a.2 t1[0]! (mul (sqrt g00[0]!) invSigma[orig]!) with _ | b <;> rfl
  | succ k ih =>
    intro t0 t1 g00 g01 g11 st l
    unfold ffSampling
    dsimp only
    generalize polySplitFft t1 (k + 1) = x1
    generalize polyLdlFft g00 g01 g11 (k + 1) = d
    generalize polySplitFft d.2 (k + 1) = s1
    have i1 := ih x1.1 x1.2 s1.1 s1.2 s1.1 st l
    rcases ha : ffSampling (logged samp) orig k x1.1 x1.2 s1.1 s1.2 s1.1 (st, l) with _ | a
    · rw [ha] at i1; rw [← i1]; rfl
    · rw [ha] at i1; rw [← i1]
      dsimp only [Option.map_some]
      generalize polySplitFft g00 (k + 1) = s0
      generalize polySplitFft (polyAdd t0 (polyMulFft d.1 (Fft.polySub t1 (polyMergeFft a.1 a.2.1 (k + 1)) (k + 1)) (k + 1)) (k + 1)) (k + 1) = x0
      have i2 := ih x0.1 x0.2 s0.1 s0.2 s0.1 a.2.2.1 a.2.2.2
      rcases hb : ffSampling (logged samp) orig k x0.1 x0.2 s0.1 s0.2 s0.1 a.2.2 with _ | b
      · rw [hb] at i2; rw [← i2]; rfl
      · rw [hb] at i2; rw [← i2]; rfl

end Verif.CRef.SignDyn
