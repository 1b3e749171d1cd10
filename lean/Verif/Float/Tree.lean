import Verif.Float.Loops

/-! # Sampling returns the transform of the drawn integers, whatever the targets and the tree hold -/

namespace Verif.PyFloat

open Verif.FFT (exactRoots exactRoots_law toK evalAt interleaveZ inDict Shaped)

theorem arrange_length : ∀ (k : ℕ) (l : List ℤ), (arrange k l).1.length = 2 ^ k ∧ (arrange k l).2.length = 2 ^ k := by
  intro k
  induction k with
  | zero => intro l; exact ⟨rfl, rfl⟩
  | succ k ih =>
    intro l
    unfold arrange
    dsimp only
    rw [FFT.length_interleaveZ, FFT.length_interleaveZ, (ih _).1, (ih _).1, pow_succ, mul_comm]
    exact ⟨rfl, rfl⟩

theorem mem_interleave (a b : List ℤ) (h : a.length = b.length) (x : ℤ) (hx : x ∈ interleaveZ a b) : x ∈ a ∨ x ∈ b := by
  unfold interleaveZ at hx
  obtain ⟨j, hj, rfl⟩ := List.mem_map.1 hx
  have := List.mem_range.1 hj
  split
  · left; rw [List.getD_eq_getElem _ _ (by omega)]; exact List.getElem_mem _
  · right; rw [List.getD_eq_getElem _ _ (by omega)]; exact List.getElem_mem _

/-- Every coefficient is one of the drawn integers. -/
theorem arrange_mem : ∀ (k : ℕ) (l : List ℤ), l.length = 2 ^ (k + 1) → (∀ x ∈ (arrange k l).1, x ∈ l) ∧ ∀ x ∈ (arrange k l).2, x ∈ l := by
  intro k
  induction k with
  | zero =>
    intro l hl
    obtain ⟨x, y, rfl⟩ : ∃ x y, l = [x, y] := by
      match l, hl with
      | [x, y], _ => exact ⟨x, y, rfl⟩
    unfold arrange
    simp
  | succ k ih =>
    intro l hl
    have p := pow_succ 2 (k + 1)
    have t := ih (l.take (2 ^ (k + 1))) (by rw [List.length_take, hl]; omega)
    have d := ih (l.drop (2 ^ (k + 1))) (by rw [List.length_drop, hl]; omega)
    unfold arrange
    dsimp only
    have L := arrange_length k
    constructor
    · intro x hx
      rcases mem_interleave _ _ (by rw [(L _).1, (L _).2]) x hx with h | h
      · exact List.mem_of_mem_drop (d.1 x h)
      · exact List.mem_of_mem_drop (d.2 x h)
    · intro x hx
      rcases mem_interleave _ _ (by rw [(L _).1, (L _).2]) x hx with h | h
      · exact List.mem_of_mem_take (t.1 x h)
      · exact List.mem_of_mem_take (t.2 x h)

theorem splitFft_ok (fl : ℝ → ℝ) {k : ℕ} (hk : k < 10) (f : List ℂ) (hl : f.length = 2 ^ (k + 1)) : ∃ a b, splitFft fl f = .ok (a, b) ∧ a.length = 2 ^ k ∧ b.length = 2 ^ k := by
  have p := pow_succ 2 k
  unfold splitFft
  dsimp only
  rw [hl, FFT.inDict_pow (by omega) (by omega), if_pos rfl]
  exact ⟨_, _, rfl, by simp [p], by simp [p]⟩

theorem mergeFft_ok (fl : ℝ → ℝ) {k : ℕ} (hk : k < 10) (a b : List ℂ) (ha : a.length = 2 ^ k) (hb : b.length = 2 ^ k) : ∃ V, mergeFft fl a b = .ok V ∧ V.length = 2 ^ (k + 1) := by
  unfold mergeFft
  dsimp only
  rw [ha, show 2 * 2 ^ k = 2 ^ (k + 1) by ring, FFT.inDict_pow (by omega) (by omega), if_pos rfl, if_neg (by rw [hb]; omega)]
  exact ⟨_, rfl, by simp⟩

theorem add_ok (fl : ℝ → ℝ) (n : ℕ) (a b : List ℂ) (ha : a.length = n) (hb : b.length = n) : add fl a b = .ok ((List.range n).map fun i => cadd fl (a.getD i 0) (b.getD i 0)) := by
  unfold add
  rw [if_pos (by rw [ha, hb]), ha]

theorem sub_ok (fl : ℝ → ℝ) (n : ℕ) (a b : List ℂ) (ha : a.length = n) (hb : b.length = n) : ∃ V, sub fl a b = .ok V ∧ V.length = n := by
  unfold sub
  rw [add_ok fl n _ _ ha (by simp [hb])]
  exact ⟨_, rfl, by simp⟩

theorem mulFft_ok (fl : ℝ → ℝ) (n : ℕ) (a b : List ℂ) (ha : a.length = n) (hb : b.length = n) : mulFft fl a b = .ok ((List.range n).map fun i => cmul fl (a.getD i 0) (b.getD i 0)) := by
  unfold mulFft
  rw [if_neg (by rw [ha, hb]; omega), ha]

/-- `ffsampling_fft`: the shape of every run that ends. -/
theorem tree {St : Type} (fl : ℝ → ℝ) (S : Sampler St) : ∀ (k : ℕ), k ≤ 10 → ∀ (fuel : ℕ), k < fuel → ∀ (t0 t1 : List ℂ) (T : FFT.Tree ℂ) (st st' : St × List ℤ) (Z0 Z1 : List ℂ), t0.length = 2 ^ k → t1.length = 2 ^ k →
    Shaped k T → ffSamplingLoop fl (logged S) fuel t0 t1 T st = .ok ((Z0, Z1), st') → Z0.length = 2 ^ k ∧ Z1.length = 2 ^ k ∧ ∃ l, st'.2 = st.2 ++ l ∧ l.length = 2 ^ (k + 1) ∧
      ∀ (_ : Rounds fl) (B : ℝ), 1 ≤ B → B ≤ 2 ^ 60 → (∀ x ∈ l, |(x : ℝ)| ≤ B) → Ap k Z0 (arrange k l).1 (ce k * (2 ^ k * B)) ∧ Ap k Z1 (arrange k l).2 (ce k * (2 ^ k * B)) := by
  intro k
  induction k with
  | zero =>
    intro _ fuel hfu t0 t1 T st st' Z0 Z1 l0 l1 hT h
    obtain ⟨fuel, rfl⟩ : ∃ j, fuel = j + 1 := ⟨fuel - 1, by omega⟩
    rcases T with L | _
    swap
    · exact absurd hT (by simp [Shaped])
    have hl : L ≠ [] := hT
    obtain ⟨s, L, rfl⟩ : ∃ s l', L = s :: l' := by cases L with | nil => exact absurd rfl hl | cons s l' => exact ⟨s, l', rfl⟩
    obtain ⟨c1, rfl⟩ : ∃ c, t1 = [c] := by
      match t1, l1 with
      | [c], _ => exact ⟨c, rfl⟩
    unfold ffSamplingLoop at h
    rw [if_neg (by rw [l0]; simp), if_pos (by rw [l0]; simp)] at h
    dsimp only at h
    unfold logged at h
    cases ha : S st.1 (t0.getD 0 0).re s with
    | error e => rw [ha] at h; cases h
    | ok a =>
      rw [ha] at h
      dsimp only at h
      cases hb : S a.2 c1.re s with
      | error e => rw [hb] at h; cases h
      | ok b =>
        rw [hb] at h
        dsimp only at h
        cases h
        refine ⟨rfl, rfl, [a.1, b.1], by simp, rfl, fun hf B hB hB2 hx => ?_⟩
        exact ⟨int_ap hf a.1 B hB hB2 (hx _ (by simp)), int_ap hf b.1 B hB hB2 (hx _ (by simp))⟩
  | succ k ih =>
    intro hk fuel hfu t0 t1 T st st' Z0 Z1 l0 l1 hT h
    obtain ⟨fuel, rfl⟩ : ∃ j, fuel = j + 1 := ⟨fuel - 1, by omega⟩
    rcases T with _ | ⟨l10, T0, T1⟩
    · exact absurd hT (by simp [Shaped])
    obtain ⟨hl, hT0, hT1⟩ := hT
    have p := pow_succ 2 k
    have p0 : 0 < 2 ^ k := by positivity
    unfold ffSamplingLoop at h
    rw [if_pos (by omega)] at h
    dsimp only at h
    obtain ⟨a, b, e1, la, lb⟩ := splitFft_ok fl (k := k) (by omega) t1 l1
    rw [e1] at h
    dsimp only at h
    cases r1 : ffSamplingLoop fl (logged S) fuel a b T1 st with
    | error e => rw [r1] at h; cases h
    | ok x =>
      obtain ⟨⟨za, zb⟩, s1⟩ := x
      rw [r1] at h
      dsimp only at h
      obtain ⟨n1, n2, d1, q1, m1, A1⟩ := ih (by omega) fuel (by omega) a b T1 st s1 za zb la lb hT1 r1
      obtain ⟨V1, v1, lv1⟩ := mergeFft_ok fl (k := k) (by omega) za zb n1 n2
      rw [v1] at h
      dsimp only at h
      obtain ⟨d, ed, ld⟩ := sub_ok fl (2 ^ (k + 1)) t1 V1 l1 lv1
      rw [ed] at h
      dsimp only at h
      rw [mulFft_ok fl (2 ^ (k + 1)) d l10 ld hl] at h
      dsimp only at h
      rw [add_ok fl (2 ^ (k + 1)) t0 _ l0 (by simp)] at h
      dsimp only at h
      obtain ⟨a', b', e2, la', lb'⟩ := splitFft_ok fl (k := k) (by omega) ((List.range (2 ^ (k + 1))).map fun i => cadd fl (t0.getD i 0)
        (((List.range (2 ^ (k + 1))).map fun i => cmul fl (d.getD i 0) (l10.getD i 0)).getD i 0)) (by simp)
      rw [e2] at h
      dsimp only at h
      cases r2 : ffSamplingLoop fl (logged S) fuel a' b' T0 s1 with
      | error e => rw [r2] at h; cases h
      | ok x =>
        obtain ⟨⟨za', zb'⟩, s2⟩ := x
        rw [r2] at h
        dsimp only at h
        obtain ⟨n3, n4, d2, q2, m2, A2⟩ := ih (by omega) fuel (by omega) a' b' T0 s1 s2 za' zb' la' lb' hT0 r2
        obtain ⟨V0, v0, lv0⟩ := mergeFft_ok fl (k := k) (by omega) za' zb' n3 n4
        rw [v0] at h
        dsimp only at h
        cases h
        refine ⟨lv0, lv1, d1 ++ d2, by rw [q2, q1, List.append_assoc], by rw [List.length_append, m1, m2, pow_succ 2 (k + 1)]; ring, fun hf B hB hB2 hx => ?_⟩
        have x1 : ∀ x ∈ d1, |(x : ℝ)| ≤ B := fun x h => hx x (List.mem_append_left _ h)
        have x2 : ∀ x ∈ d2, |(x : ℝ)| ≤ B := fun x h => hx x (List.mem_append_right _ h)
        have t : (d1 ++ d2).take (2 ^ (k + 1)) = d1 := by rw [← m1]; exact List.take_left
        have dd : (d1 ++ d2).drop (2 ^ (k + 1)) = d2 := by rw [← m1]; exact List.drop_left
        unfold arrange
        dsimp only
        rw [t, dd]
        have L1 := arrange_length k d1
        have L2 := arrange_length k d2
        have M1 := arrange_mem k d1 m1
        have M2 := arrange_mem k d2 m2
        obtain ⟨W0, w0, B0⟩ := merge_ce hf (by omega) L2.1 L2.2 B hB hB2 (fun x h => x2 x (M2.1 x h)) (fun x h => x2 x (M2.2 x h)) (A2 hf B hB hB2 x2).1 (A2 hf B hB hB2 x2).2
        obtain ⟨W1, w1, B1⟩ := merge_ce hf (by omega) L1.1 L1.2 B hB hB2 (fun x h => x1 x (M1.1 x h)) (fun x h => x1 x (M1.2 x h)) (A1 hf B hB hB2 x1).1 (A1 hf B hB hB2 x1).2
        rw [v0] at w0
        rw [v1] at w1
        cases w0
        cases w1
        exact ⟨B0, B1⟩

/-- Recording changes nothing. -/
theorem tree_logged {St : Type} (fl : ℝ → ℝ) (S : Sampler St) : ∀ (fuel : ℕ) (t0 t1 : List ℂ) (T : FFT.Tree ℂ) (st : St) (l : List ℤ),
    (ffSamplingLoop fl (logged S) fuel t0 t1 T (st, l)).map (fun r => (r.1, r.2.1)) = ffSamplingLoop fl S fuel t0 t1 T st := by
  intro fuel
  induction fuel with
  | zero => intro t0 t1 T st l; rfl
  | succ fuel ih =>
    intro t0 t1 T st l
    unfold ffSamplingLoop
    split
    · cases T with
      | leaf _ => rfl
      | node l10 T0 T1 =>
        dsimp only
        cases splitFft fl t1 with
        | error e => rfl
        | ok x =>
          dsimp only
          rw [← ih x.1 x.2 T1 st l]
          cases ffSamplingLoop fl (logged S) fuel x.1 x.2 T1 (st, l) with
          | error e => rfl
          | ok y =>
            obtain ⟨⟨za, zb⟩, s1⟩ := y
            dsimp only [Except.map]
            cases mergeFft fl za zb with
            | error e => rfl
            | ok z1 =>
              dsimp only
              cases sub fl t1 z1 with
              | error e => rfl
              | ok d =>
                dsimp only
                cases mulFft fl d l10 with
                | error e => rfl
                | ok m =>
                  dsimp only
                  cases add fl t0 m with
                  | error e => rfl
                  | ok t0b =>
                    dsimp only
                    cases splitFft fl t0b with
                    | error e => rfl
                    | ok x =>
                      dsimp only
                      rw [← ih x.1 x.2 T0 s1.1 s1.2]
                      cases ffSamplingLoop fl (logged S) fuel x.1 x.2 T0 (s1.1, s1.2) with
                      | error e => rfl
                      | ok y =>
                        obtain ⟨⟨za, zb⟩, s2⟩ := y
                        dsimp only [Except.map]
                        cases mergeFft fl za zb with
                        | error e => rfl
                        | ok z0 => rfl
    · split
      · cases T with
        | node _ _ _ => rfl
        | leaf L =>
          cases L with
          | nil => rfl
          | cons s L =>
            dsimp only
            unfold logged
            dsimp only
            cases S st (t0.getD 0 0).re s with
            | error e => rfl
            | ok a =>
              dsimp only
              cases t1 with
              | nil => rfl
              | cons c t1 =>
                dsimp only
                cases S a.2 c.re s with
                | error e => rfl
                | ok b => rfl
      · rfl

/-- The only exceptions are those of the sampler. -/
theorem tree_total {St : Type} (fl : ℝ → ℝ) (S : Sampler St) (hS : ∀ st c s, ∃ r, S st c s = .ok r) : ∀ (k : ℕ), k ≤ 10 → ∀ (fuel : ℕ), k < fuel → ∀ (t0 t1 : List ℂ) (T : FFT.Tree ℂ) (st : St), t0.length = 2 ^ k →
    t1.length = 2 ^ k → Shaped k T → ∃ Z0 Z1 st', ffSamplingLoop fl S fuel t0 t1 T st = .ok ((Z0, Z1), st') ∧ Z0.length = 2 ^ k ∧ Z1.length = 2 ^ k := by
  intro k
  induction k with
  | zero =>
    intro _ fuel hfu t0 t1 T st l0 l1 hT
    obtain ⟨fuel, rfl⟩ : ∃ j, fuel = j + 1 := ⟨fuel - 1, by omega⟩
    rcases T with L | _
    swap
    · exact absurd hT (by simp [Shaped])
    have hl : L ≠ [] := hT
    obtain ⟨s, L, rfl⟩ : ∃ s l', L = s :: l' := by cases L with | nil => exact absurd rfl hl | cons s l' => exact ⟨s, l', rfl⟩
    obtain ⟨c1, rfl⟩ : ∃ c, t1 = [c] := by
      match t1, l1 with
      | [c], _ => exact ⟨c, rfl⟩
    unfold ffSamplingLoop
    rw [if_neg (by rw [l0]; simp), if_pos (by rw [l0]; simp)]
    dsimp only
    obtain ⟨a, ha⟩ := hS st (t0.getD 0 0).re s
    rw [ha]
    dsimp only
    obtain ⟨b, hb⟩ := hS a.2 c1.re s
    rw [hb]
    exact ⟨_, _, _, rfl, rfl, rfl⟩
  | succ k ih =>
    intro hk fuel hfu t0 t1 T st l0 l1 hT
    obtain ⟨fuel, rfl⟩ : ∃ j, fuel = j + 1 := ⟨fuel - 1, by omega⟩
    rcases T with _ | ⟨l10, T0, T1⟩
    · exact absurd hT (by simp [Shaped])
    obtain ⟨hl, hT0, hT1⟩ := hT
    have p := pow_succ 2 k
    have p0 : 0 < 2 ^ k := by positivity
    unfold ffSamplingLoop
    rw [if_pos (by omega)]
    dsimp only
    obtain ⟨a, b, e1, la, lb⟩ := splitFft_ok fl (k := k) (by omega) t1 l1
    rw [e1]
    dsimp only
    obtain ⟨za, zb, s1, r1, n1, n2⟩ := ih (by omega) fuel (by omega) a b T1 st la lb hT1
    rw [r1]
    dsimp only
    obtain ⟨V1, v1, lv1⟩ := mergeFft_ok fl (k := k) (by omega) za zb n1 n2
    rw [v1]
    dsimp only
    obtain ⟨d, ed, ld⟩ := sub_ok fl (2 ^ (k + 1)) t1 V1 l1 lv1
    rw [ed]
    dsimp only
    rw [mulFft_ok fl (2 ^ (k + 1)) d l10 ld hl]
    dsimp only
    rw [add_ok fl (2 ^ (k + 1)) t0 _ l0 (by simp)]
    dsimp only
    obtain ⟨a', b', e2, la', lb'⟩ := splitFft_ok fl (k := k) (by omega) ((List.range (2 ^ (k + 1))).map fun i => cadd fl (t0.getD i 0)
      (((List.range (2 ^ (k + 1))).map fun i => cmul fl (d.getD i 0) (l10.getD i 0)).getD i 0)) (by simp)
    rw [e2]
    dsimp only
    obtain ⟨za', zb', s2, r2, n3, n4⟩ := ih (by omega) fuel (by omega) a' b' T0 s1 la' lb' hT0
    rw [r2]
    dsimp only
    obtain ⟨V0, v0, lv0⟩ := mergeFft_ok fl (k := k) (by omega) za' zb' n3 n4
    rw [v0]
    exact ⟨_, _, _, rfl, lv0, lv1⟩

end Verif.PyFloat
