import Verif.Float.Preimage
import Verif.Falcon.Props
import Verif.CRef.FftErr

/-! # C110: the Python signer computes preimages exactly, in floating point -/

namespace Verif.PyFloat

open Verif.FFT (Shaped Mat)
open Verif.Falcon Verif.Hash

section

variable {St : Type} (fl : ℝ → ℝ) (S : Sampler St)

theorem pneg_bound (f : List ℤ) (A : ℝ) (h : ∀ x ∈ f, |(x : ℝ)| ≤ A) : ∀ x ∈ pneg f, |(x : ℝ)| ≤ A := by
  intro x hx
  obtain ⟨y, hy, rfl⟩ := List.mem_map.1 hx
  push_cast
  rw [abs_neg]
  exact h y hy

theorem small {k A Z : ℕ} (A1 : 1 ≤ A) (Z1 : 1 ≤ Z) (hP : 4 ^ k * A * Z ≤ 2 ^ 40) : (A : ℝ) ≤ 2 ^ 60 ∧ (Z : ℝ) ≤ 2 ^ 60 := by
  have p : 1 ≤ 4 ^ k := Nat.one_le_pow _ _ (by omega)
  have a : A ≤ 4 ^ k * A * Z := (Nat.le_mul_of_pos_left A (by omega)).trans (Nat.le_mul_of_pos_right _ (by omega))
  have z : Z ≤ 4 ^ k * A * Z := Nat.le_mul_of_pos_left Z (by positivity)
  have : 2 ^ 40 ≤ 2 ^ 60 := by norm_num
  constructor
  · exact_mod_cast (a.trans hP).trans this
  · exact_mod_cast (z.trans hP).trans this

theorem cast_le {x : ℤ} {A : ℕ} (h : |x| ≤ (A : ℤ)) : |(x : ℝ)| ≤ (A : ℝ) := by
  rw [← Int.cast_abs]; exact_mod_cast h

/-- The basis is computed without exception. -/
theorem basis_ok {k : ℕ} (h1 : 1 ≤ k) (h2 : k ≤ 10) {f g F G : List ℤ} (lf : f.length = 2 ^ k) (lg : g.length = 2 ^ k) (lF : F.length = 2 ^ k) (lG : G.length = 2 ^ k) :
    ∃ B, basis fl f g F G = .ok B ∧ B.a.length = 2 ^ k ∧ B.b.length = 2 ^ k ∧ B.c.length = 2 ^ k ∧ B.d.length = 2 ^ k := by
  obtain ⟨a, ea, la⟩ := fft_len fl h1 h2 g lg
  obtain ⟨b, eb, lb⟩ := fft_len fl h1 h2 (f.map fun x => -x) (by simpa using lf)
  obtain ⟨c, ec, lc⟩ := fft_len fl h1 h2 G lG
  obtain ⟨d, ed, ld⟩ := fft_len fl h1 h2 (F.map fun x => -x) (by simpa using lF)
  refine ⟨⟨a, b, c, d⟩, ?_, la, lb, lc, ld⟩
  unfold basis
  rw [ea]; dsimp only
  rw [eb]; dsimp only
  rw [ec]; dsimp only
  rw [ed]

/-- **C110 (exact)**: for every rounding of the operations accurate to `2^-53`, whatever the tree holds and whatever the sampler draws, `sample_preimage` returns exactly the integers
`(point - z0 g - z1 G, z0 f + z1 F)` modulo `x^n + 1` of the integer polynomials `z0`, `z1` drawn, as long as `n^2 · max |key coefficient| · max |draw| ≤ 2^40`: no error of the floating-point
transforms ever reaches the result of `int(round(·))`. -/
theorem C110_exact (hf : Rounds fl) {k : ℕ} (h1 : 1 ≤ k) (h2 : k ≤ 10) (sk : SecretKey) (lf : sk.f.length = 2 ^ k) (lg : sk.g.length = 2 ^ k) (lF : sk.F.length = 2 ^ k) (lG : sk.G.length = 2 ^ k)
    (A Z : ℕ) (A1 : 1 ≤ A) (Z1 : 1 ≤ Z) (hP : 4 ^ k * A * Z ≤ 2 ^ 40) (hA : ∀ x ∈ sk.f ++ sk.g ++ sk.F ++ sk.G, |x| ≤ A) {B : Mat ℂ} (hB : basis fl sk.f sk.g sk.F sk.G = .ok B)
    {T : FFT.Tree ℂ} (hT : Shaped k T) {point : List ℤ} (hp : point.length = 2 ^ k) {st st' : St} {draws : List ℤ} {s : List ℤ × List ℤ}
    (hrun : samplePreimage fl (logged S) B T point (st, []) = .ok (s, (st', draws))) (hZ : ∀ x ∈ draws, |x| ≤ Z) :
    draws.length = 2 ^ (k + 1) ∧ s = Falcon.samplePreimage (2 ^ k) sk point (arrange k draws) := by
  obtain ⟨a, ea, Aa⟩ := fft_ap hf A (by exact_mod_cast A1) (small A1 Z1 hP).1 h1 h2 sk.g lg (fun x hx => cast_le (hA x (by simp [hx])))
  obtain ⟨b, eb, Ab⟩ := fft_ap hf A (by exact_mod_cast A1) (small A1 Z1 hP).1 h1 h2 (pneg sk.f) (by simpa [pneg] using lf) (pneg_bound _ _ fun x hx => cast_le (hA x (by simp [hx])))
  obtain ⟨c, ec, Ac⟩ := fft_ap hf A (by exact_mod_cast A1) (small A1 Z1 hP).1 h1 h2 sk.G lG (fun x hx => cast_le (hA x (by simp [hx])))
  obtain ⟨d, ed, Ad⟩ := fft_ap hf A (by exact_mod_cast A1) (small A1 Z1 hP).1 h1 h2 (pneg sk.F) (by simpa [pneg] using lF) (pneg_bound _ _ fun x hx => cast_le (hA x (by simp [hx])))
  have eB : B = ⟨a, b, c, d⟩ := by
    unfold basis at hB
    rw [ea] at hB; dsimp only at hB
    rw [show sk.f.map (fun x => -x) = pneg sk.f from rfl, eb] at hB; dsimp only at hB
    rw [ec] at hB; dsimp only at hB
    rw [show sk.F.map (fun x => -x) = pneg sk.F from rfl, ed] at hB
    cases hB; rfl
  subst eB
  obtain ⟨p, ep, lp⟩ := fft_len fl h1 h2 point hp
  unfold samplePreimage at hrun
  rw [ep] at hrun
  dsimp only at hrun
  rw [lp] at hrun
  obtain ⟨t0, ht0⟩ : ∃ t, t = (List.range (2 ^ k)).map fun i => cdiv fl (cmul fl (p.getD i 0) (d.getD i 0)) (ofInt fl 12289) := ⟨_, rfl⟩
  obtain ⟨t1, ht1⟩ : ∃ t, t = (List.range (2 ^ k)).map fun i => cdiv fl (cmul fl (-p.getD i 0) (b.getD i 0)) (ofInt fl 12289) := ⟨_, rfl⟩
  rw [← ht0, ← ht1] at hrun
  have l0 : t0.length = 2 ^ k := by rw [ht0]; simp
  have l1 : t1.length = 2 ^ k := by rw [ht1]; simp
  have kk : k < 2 ^ k := Nat.lt_two_pow_self
  cases r : ffSamplingLoop fl (logged S) (t0.length + 1) t0 t1 T (st, []) with
  | error e => rw [r] at hrun; cases hrun
  | ok x =>
    obtain ⟨⟨V0, V1⟩, s1⟩ := x
    rw [r] at hrun
    dsimp only at hrun
    obtain ⟨n0, n1, l, el, ll, H⟩ := tree fl S k h2 (t0.length + 1) (by omega) t0 t1 T (st, []) s1 V0 V1 l0 l1 hT r
    rw [List.nil_append] at el
    -- the record of the whole run is that of the tree
    have key : (∀ x ∈ l, |x| ≤ (Z : ℤ)) → ∃ v0 v1, v0 = padd (pmul (2 ^ k) (arrange k l).1 sk.g) (pmul (2 ^ k) (arrange k l).2 sk.G) ∧
        v1 = padd (pmul (2 ^ k) (arrange k l).1 (pneg sk.f)) (pmul (2 ^ k) (arrange k l).2 (pneg sk.F)) ∧ (Except.ok (s, (st', draws)) : Except Err ((List ℤ × List ℤ) × St × List ℤ)) = .ok ((psub point v0, pneg v1), s1) := by
      intro hz
      obtain ⟨H0, H1⟩ := H hf Z (by exact_mod_cast Z1) (small A1 Z1 hP).2 (fun x hx => cast_le (hz x hx))
      have M := arrange_mem k l ll
      have L := arrange_length k l
      have hP' : (4 : ℝ) ^ k * A * Z ≤ 2 ^ 40 := by exact_mod_cast hP
      obtain ⟨X, Y, V, v, e1, e2, e3, e4, e5⟩ := combine hf h1 h2 A Z (by exact_mod_cast A1) (by exact_mod_cast Z1) hP' L.1 L.2 lg lG (fun x hx => cast_le (hz x (M.1 x hx)))
        (fun x hx => cast_le (hz x (M.2 x hx))) (fun x hx => cast_le (hA x (by simp [hx]))) (fun x hx => cast_le (hA x (by simp [hx]))) H0 H1 Aa Ac
      obtain ⟨X', Y', V', v', e1', e2', e3', e4', e5'⟩ := combine hf h1 h2 A Z (by exact_mod_cast A1) (by exact_mod_cast Z1) hP' L.1 L.2 (show (pneg sk.f).length = 2 ^ k by simpa [pneg] using lf)
        (show (pneg sk.F).length = 2 ^ k by simpa [pneg] using lF) (fun x hx => cast_le (hz x (M.1 x hx))) (fun x hx => cast_le (hz x (M.2 x hx))) (pneg_bound _ _ fun x hx => cast_le (hA x (by simp [hx])))
        (pneg_bound _ _ fun x hx => cast_le (hA x (by simp [hx]))) H0 H1 Ab Ad
      rw [e1] at hrun; dsimp only at hrun
      rw [e2] at hrun; dsimp only at hrun
      rw [e3] at hrun; dsimp only at hrun
      rw [e1'] at hrun; dsimp only at hrun
      rw [e2'] at hrun; dsimp only at hrun
      rw [e3'] at hrun; dsimp only at hrun
      rw [e4] at hrun; dsimp only at hrun
      rw [e4'] at hrun; dsimp only at hrun
      rw [if_pos (by rw [hp, ← List.length_map (f := pyRound), e5]; simp [padd])] at hrun
      refine ⟨_, _, rfl, rfl, ?_⟩
      rw [← hrun, e5, e5']
      rfl
    have es : (st', draws) = s1 := by
      clear H el key
      repeat' split at hrun
      all_goals cases hrun
      rfl
    have ed : draws = l := by rw [← el, ← es]
    rw [ed] at hZ
    obtain ⟨v0, v1, e0, e1, e2⟩ := key hZ
    cases e2
    rw [ed]
    exact ⟨ll, by rw [e0, e1]; rfl⟩

/-- **C110 (recording)**: keeping a record of the draws changes neither the result nor the exceptions. -/
theorem C110_logged (B : Mat ℂ) (T : FFT.Tree ℂ) (point : List ℤ) (st : St) (l : List ℤ) :
    (samplePreimage fl (logged S) B T point (st, l)).map (fun r => (r.1, r.2.1)) = samplePreimage fl S B T point st := by
  unfold samplePreimage
  cases fft fl point with
  | error e => rfl
  | ok p =>
    dsimp only
    rw [← tree_logged fl S _ _ _ T st l]
    cases ffSamplingLoop fl (logged S) _ _ _ T (st, l) with
    | error e => rfl
    | ok x =>
      obtain ⟨⟨z0, z1⟩, s1⟩ := x
      dsimp only [Except.map]
      cases mulFft fl z0 B.a with
      | error e => rfl
      | ok x0 =>
        dsimp only
        cases mulFft fl z1 B.c with
        | error e => rfl
        | ok y0 =>
          dsimp only
          cases add fl x0 y0 with
          | error e => rfl
          | ok v0 =>
            dsimp only
            cases mulFft fl z0 B.b with
            | error e => rfl
            | ok x1 =>
              dsimp only
              cases mulFft fl z1 B.d with
              | error e => rfl
              | ok y1 =>
                dsimp only
                cases add fl x1 y1 with
                | error e => rfl
                | ok v1 =>
                  dsimp only
                  cases ifft fl v0 with
                  | error e => rfl
                  | ok w0 =>
                    dsimp only
                    cases ifft fl v1 with
                    | error e => rfl
                    | ok w1 =>
                      dsimp only
                      by_cases hl : point.length = w0.length
                      · rw [if_pos hl, if_pos hl]
                      · rw [if_neg hl, if_neg hl]

/-- Every recorded integer was returned by the sampler. -/
theorem tree_inv (Q : ℤ → Prop) (hS : ∀ st c s r, S st c s = .ok r → Q r.1) : ∀ (fuel : ℕ) (t0 t1 : List ℂ) (T : FFT.Tree ℂ) (st : St × List ℤ) r, ffSamplingLoop fl (logged S) fuel t0 t1 T st = .ok r →
    (∀ x ∈ st.2, Q x) → ∀ x ∈ r.2.2, Q x := by
  have leaf : ∀ st c s r, logged S st c s = .ok r → (∀ x ∈ st.2, Q x) → ∀ x ∈ r.2.2, Q x := by
    intro st c s r h hq
    unfold logged at h
    cases e : S st.1 c s with
    | error _ => rw [e] at h; cases h
    | ok y =>
      rw [e] at h
      cases h
      intro x hx
      rcases List.mem_append.1 hx with h | h
      · exact hq x h
      · rw [List.mem_singleton.1 h]; exact hS _ _ _ _ e
  intro fuel
  induction fuel with
  | zero => intro t0 t1 T st r h; cases h
  | succ fuel ih =>
    intro t0 t1 T st r h hq
    unfold ffSamplingLoop at h
    split at h
    · cases T with
      | leaf _ => cases h
      | node l10 T0 T1 =>
        dsimp only at h
        split at h
        · cases h
        · split at h
          · cases h
          · rename_i r1
            have q1 := ih _ _ _ _ _ r1 hq
            split at h
            · cases h
            · split at h
              · cases h
              · split at h
                · cases h
                · split at h
                  · cases h
                  · split at h
                    · cases h
                    · split at h
                      · cases h
                      · rename_i r2
                        have q2 := ih _ _ _ _ _ r2 q1
                        split at h
                        · cases h
                        · cases h; exact q2
    · split at h
      · cases T with
        | node _ _ _ => cases h
        | leaf L =>
          cases L with
          | nil => cases h
          | cons s L =>
            dsimp only at h
            split at h
            · cases h
            · rename_i r1
              have q1 := leaf _ _ _ _ r1 hq
              split at h
              · cases h
              · split at h
                · cases h
                · rename_i r2
                  have q2 := leaf _ _ _ _ r2 q1
                  cases h; exact q2
      · cases h

theorem ifft_total : ∀ (k : ℕ), k < 10 → ∀ (fuel : ℕ), k < fuel → ∀ (V : List ℂ), V.length = 2 ^ (k + 1) → ∃ v, ifftLoop fl fuel V = .ok v ∧ v.length = 2 ^ (k + 1) := by
  intro k
  induction k with
  | zero =>
    intro _ fuel hfu V hl
    obtain ⟨fuel, rfl⟩ : ∃ j, fuel = j + 1 := ⟨fuel - 1, by omega⟩
    unfold ifftLoop
    rw [if_neg (by rw [hl]; norm_num), if_pos (by rw [hl]; norm_num)]
    exact ⟨_, rfl, rfl⟩
  | succ k ih =>
    intro hk fuel hfu V hl
    obtain ⟨fuel, rfl⟩ : ∃ j, fuel = j + 1 := ⟨fuel - 1, by omega⟩
    have p := pow_succ 2 (k + 1)
    have p1 := pow_succ 2 k
    have p0 : 0 < 2 ^ k := by positivity
    unfold ifftLoop
    rw [if_pos (by omega)]
    obtain ⟨a, b, e, la, lb⟩ := splitFft_ok fl (by omega) V hl
    rw [e]
    dsimp only
    obtain ⟨a', ea, la'⟩ := ih (by omega) fuel (by omega) a la
    obtain ⟨b', eb, lb'⟩ := ih (by omega) fuel (by omega) b lb
    rw [ea]
    dsimp only
    rw [eb]
    dsimp only
    unfold merge
    rw [if_neg (by omega)]
    exact ⟨_, rfl, by simp [la', p, mul_comm]⟩

/-- **C110 (total)**: `sample_preimage` raises no exception of its own: with a sampler that always returns, it always returns, whatever the rounding. -/
theorem C110_total (hS : ∀ st c s, ∃ r, S st c s = .ok r) {k : ℕ} (h1 : 1 ≤ k) (h2 : k ≤ 10) {f g F G : List ℤ} (lf : f.length = 2 ^ k) (lg : g.length = 2 ^ k) (lF : F.length = 2 ^ k)
    (lG : G.length = 2 ^ k) {T : FFT.Tree ℂ} (hT : Shaped k T) {point : List ℤ} (hp : point.length = 2 ^ k) (st : St) :
    ∃ B s st', basis fl f g F G = .ok B ∧ samplePreimage fl S B T point st = .ok (s, st') := by
  obtain ⟨B, eB, la, lb, lc, ld⟩ := basis_ok fl h1 h2 lf lg lF lG
  obtain ⟨p, ep, lp⟩ := fft_len fl h1 h2 point hp
  refine ⟨B, ?_⟩
  unfold samplePreimage
  rw [ep]
  dsimp only
  rw [lp]
  have kk : k < 2 ^ k := Nat.lt_two_pow_self
  obtain ⟨Z0, Z1, st', e, l0, l1⟩ := tree_total fl S hS k h2 (2 ^ k + 1) (by omega) ((List.range (2 ^ k)).map fun i => cdiv fl (cmul fl (p.getD i 0) (B.d.getD i 0)) (ofInt fl 12289))
    ((List.range (2 ^ k)).map fun i => cdiv fl (cmul fl (-p.getD i 0) (B.b.getD i 0)) (ofInt fl 12289)) T st (by simp) (by simp) hT
  rw [List.length_map, List.length_range, e]
  dsimp only
  rw [mulFft_ok fl _ _ _ l0 la]; dsimp only
  rw [mulFft_ok fl _ _ _ l1 lc]; dsimp only
  rw [add_ok fl (2 ^ k) _ _ (by simp) (by simp)]; dsimp only
  rw [mulFft_ok fl _ _ _ l0 lb]; dsimp only
  rw [mulFft_ok fl _ _ _ l1 ld]; dsimp only
  rw [add_ok fl (2 ^ k) _ _ (by simp) (by simp)]; dsimp only
  obtain ⟨k, rfl⟩ : ∃ j, k = j + 1 := ⟨k - 1, by omega⟩
  have IF : ∀ V : List ℂ, V.length = 2 ^ (k + 1) → ∃ v, ifft fl V = .ok v ∧ v.length = 2 ^ (k + 1) := fun V hV => ifft_total fl k (by omega) (V.length + 1) (by rw [hV]; omega) V hV
  obtain ⟨V, hV⟩ : ∃ V, V = (List.range (2 ^ (k + 1))).map fun i => cadd fl (((List.range (2 ^ (k + 1))).map fun i => cmul fl (Z0.getD i 0) (B.a.getD i 0)).getD i 0)
    (((List.range (2 ^ (k + 1))).map fun i => cmul fl (Z1.getD i 0) (B.c.getD i 0)).getD i 0) := ⟨_, rfl⟩
  obtain ⟨V', hV'⟩ : ∃ V, V = (List.range (2 ^ (k + 1))).map fun i => cadd fl (((List.range (2 ^ (k + 1))).map fun i => cmul fl (Z0.getD i 0) (B.b.getD i 0)).getD i 0)
    (((List.range (2 ^ (k + 1))).map fun i => cmul fl (Z1.getD i 0) (B.d.getD i 0)).getD i 0) := ⟨_, rfl⟩
  rw [← hV, ← hV']
  obtain ⟨v, ev, lv⟩ := IF V (by rw [hV]; simp)
  obtain ⟨v', ev', lv'⟩ := IF V' (by rw [hV']; simp)
  rw [ev]; dsimp only
  rw [ev']; dsimp only
  rw [if_pos (by rw [hp, lv])]
  exact ⟨_, _, eB, rfl⟩

/-- **C110 (preimage)**: hence, with a key that satisfies the key equations, every run of `sample_preimage` in floating point ends in a preimage of the point under the public key:
`s0 + s1 h = point` modulo `q`. -/
theorem C110_preimage (hf : Rounds fl) {k : ℕ} (h1 : 1 ≤ k) (h2 : k ≤ 10) (sk : SecretKey) (K : IsKey (2 ^ k) sk) (A Z : ℕ) (A1 : 1 ≤ A) (Z1 : 1 ≤ Z) (hP : 4 ^ k * A * Z ≤ 2 ^ 40)
    (hA : ∀ x ∈ sk.f ++ sk.g ++ sk.F ++ sk.G, |x| ≤ A) {B : Mat ℂ} (hB : basis fl sk.f sk.g sk.F sk.G = .ok B) {T : FFT.Tree ℂ} (hT : Shaped k T) {point : List ℤ} (hp : point.length = 2 ^ k)
    {st st' : St} {draws : List ℤ} {s : List ℤ × List ℤ} (hrun : samplePreimage fl (logged S) B T point (st, []) = .ok (s, (st', draws))) (hZ : ∀ x ∈ draws, |x| ≤ Z) :
    IsPreimage (2 ^ k) sk.h point s.1 s.2 := by
  obtain ⟨-, rfl⟩ := C110_exact fl S hf h1 h2 sk K.lf K.lg K.lF K.lG A Z A1 Z1 hP hA hB hT hp hrun hZ
  exact samplePreimage_isPreimage (2 ^ k) (by positivity) sk K point hp (arrange k draws) (arrange_length k draws).1 (arrange_length k draws).2

/-- **C110 (no hypothesis on the run)**: with a sampler that always returns integers of absolute value at most `Z`, whatever the tree holds, `sample_preimage` returns a preimage of every point. -/
theorem C110_run (hf : Rounds fl) {k : ℕ} (h1 : 1 ≤ k) (h2 : k ≤ 10) (sk : SecretKey) (K : IsKey (2 ^ k) sk) (A Z : ℕ) (A1 : 1 ≤ A) (Z1 : 1 ≤ Z) (hP : 4 ^ k * A * Z ≤ 2 ^ 40)
    (hA : ∀ x ∈ sk.f ++ sk.g ++ sk.F ++ sk.G, |x| ≤ A) (hS : ∀ st c s, ∃ x st', S st c s = .ok (x, st') ∧ |x| ≤ Z) {T : FFT.Tree ℂ} (hT : Shaped k T) {point : List ℤ} (hp : point.length = 2 ^ k) (st : St) :
    ∃ (B : Mat ℂ) (draws : List ℤ) (st' : St), basis fl sk.f sk.g sk.F sk.G = .ok B ∧ draws.length = 2 ^ (k + 1) ∧ (∀ x ∈ draws, |x| ≤ Z) ∧
      samplePreimage fl S B T point st = .ok (Falcon.samplePreimage (2 ^ k) sk point (arrange k draws), st') ∧
      IsPreimage (2 ^ k) sk.h point (Falcon.samplePreimage (2 ^ k) sk point (arrange k draws)).1 (Falcon.samplePreimage (2 ^ k) sk point (arrange k draws)).2 := by
  obtain ⟨B, s, s2, eB, e⟩ := C110_total fl (logged S) (fun st c s => by
    obtain ⟨x, st', e, -⟩ := hS st.1 c s
    exact ⟨_, by unfold logged; rw [e]⟩) h1 h2 K.lf K.lg K.lF K.lG hT hp (st, [])
  obtain ⟨st', draws⟩ := s2
  have hz : ∀ x ∈ draws, |x| ≤ (Z : ℤ) := by
    have e' := e
    unfold samplePreimage at e'
    cases r : fft fl point with
    | error _ => rw [r] at e'; cases e'
    | ok p =>
      rw [r] at e'
      dsimp only at e'
      cases r2 : ffSamplingLoop fl (logged S) _ _ _ T (st, []) with
      | error _ => rw [r2] at e'; cases e'
      | ok y =>
        obtain ⟨⟨z0, z1⟩, s1⟩ := y
        rw [r2] at e'
        dsimp only at e'
        have es : s1 = (st', draws) := by
          clear r2
          repeat' split at e'
          all_goals cases e'
          rfl
        rw [es] at r2
        exact tree_inv fl S (fun x => |x| ≤ (Z : ℤ)) (fun st c s r h => by
          obtain ⟨x, st', e, hx⟩ := hS st c s
          rw [e] at h
          cases h
          exact hx) _ _ _ T (st, []) _ r2 (by simp)
  obtain ⟨hl, rfl⟩ := C110_exact fl S hf h1 h2 sk K.lf K.lg K.lF K.lG A Z A1 Z1 hP hA eB hT hp e hz
  refine ⟨B, draws, st', eB, hl, hz, ?_, C110_preimage fl S hf h1 h2 sk K A Z A1 Z1 hP hA eB hT hp e hz⟩
  rw [← C110_logged fl S B T point st [], e]
  rfl

/-- **C110 (signatures)**: every signature made of such floating-point preimages is accepted by `verify` under the matching public key: C27 without the assumption that the
signer's arithmetic is exact.  `attempt c i` is what iteration `i` of the signing loop computes for the hashed point `c`, from whatever state of the generator. -/
theorem C110_sign_verify {W : Type} (hf : Rounds fl) (P : PolyLib) (X : Xof W) {k : ℕ} (h1 : 1 ≤ k) (h2 : k ≤ 10) (bound bytelen : ℕ) (hpar : params (2 ^ k) = some (bound, bytelen)) (Ar : Arith P (2 ^ k))
    (sk : SecretKey) (K : IsKey (2 ^ k) sk) (A Z : ℕ) (A1 : 1 ≤ A) (Z1 : 1 ≤ Z) (hP : 4 ^ k * A * Z ≤ 2 ^ 40) (hA : ∀ x ∈ sk.f ++ sk.g ++ sk.F ++ sk.G, |x| ≤ A) {B : Mat ℂ}
    (hB : basis fl sk.f sk.g sk.F sk.G = .ok B) {T : FFT.Tree ℂ} (hT : Shaped k T) (salt message : Bytes) (hs : salt.length = 40) (hsb : IsBytes salt) (attempt : List ℤ → ℕ → List ℤ × List ℤ)
    (hz : ∀ c i, c.length = 2 ^ k → ∃ st st' draws, samplePreimage fl (logged S) B T c (st, []) = .ok (attempt c i, (st', draws)) ∧ ∀ x ∈ draws, |x| ≤ (Z : ℤ)) (sig : Bytes)
    (h : SignReturns X (2 ^ k) bound bytelen salt message attempt sig) : VerifyReturns P X (2 ^ k) bound bytelen sk.h message sig true := by
  obtain ⟨_, f1, _, f2⟩ := C28_format X (2 ^ k) bound bytelen hpar salt message hs hsb _ sig h
  obtain ⟨c, hc, j, _, hg, enc, e1, e2, ⟨m, e3⟩, e4⟩ := (C29_first_good X (2 ^ k) bound bytelen salt message _ sig).1 h
  rw [C25_accepts_iff P X (2 ^ k) bound bytelen (by positivity) Ar _ K.lh]
  have lc : (List.map (fun x : ℕ => (x : ℤ)) c).length = 2 ^ k := by simpa using hash_length hc
  obtain ⟨st, st', draws, e, hd⟩ := hz _ j lc
  have hp := C110_preimage fl S hf h1 h2 sk K A Z A1 Z1 hP hA hB hT lc e hd
  refine ⟨_, c, ⟨by omega, hp.2.1, ?_⟩, f2.symm ▸ hc, _, hp, hg.1⟩
  have : sig.drop 41 = enc := by
    rw [e4, show ((0x20 + logn (2 ^ k)) :: salt ++ enc) = ((0x20 + logn (2 ^ k)) :: salt) ++ enc from rfl, List.drop_left' (by simp [hs])]
  rw [this, e3]
  exact List.prefix_append _ _

end

/-! ## The hypotheses can be met -/

/-- Exact arithmetic is a rounding. -/
theorem rounds_id : Rounds id := ⟨fun x _ => by simp only [id, sub_self, abs_zero]; positivity⟩

/-- So is rounding to binary64 as the C reference code does it (to nearest even, C99). -/
theorem rounds_fpr : Rounds CRef.Fpr.fl := ⟨fun x _ => by
  have := CRef.Fft.fl_close x
  unfold CRef.Fft.uu CRef.Fft.eta at this
  have e : (2 : ℝ) ^ (-1022 : ℤ) ≤ 1 / 2 ^ 200 := by
    rw [zpow_neg, one_div]
    gcongr
    rw [show (1022 : ℤ) = ((1022 : ℕ) : ℤ) from rfl, zpow_natCast]
    exact pow_le_pow_right₀ (by norm_num) (by norm_num)
  rw [one_div, inv_mul_eq_div] at this
  linarith only [this, e]⟩

/-- The sizes of the Falcon parameters: keys with coefficients of at most 127 (they fit their 8-bit encoding) leave room for draws up to `2^15` in dimension 512 and `2^13` in dimension 1024. -/
example : 4 ^ 9 * 127 * 2 ^ 15 ≤ 2 ^ 40 ∧ 4 ^ 10 * 127 * 2 ^ 13 ≤ 2 ^ 40 := by norm_num

/-- The draws of dimension 2: the first two give `z1`, the last two `z0`. -/
example : arrange 1 [0, 1, 26, 103] = ([26, 103], [0, 1]) := rfl

/-- C110 applies to the key of the signing examples, with binary64 arithmetic and a sampler that counts. -/
example : ∃ (B : Mat ℂ) (draws : List ℤ) (st' : ℕ), basis CRef.Fpr.fl toyKey.f toyKey.g toyKey.F toyKey.G = .ok B ∧ draws.length = 2 ^ (1 + 1) ∧ (∀ x ∈ draws, |x| ≤ (103 : ℕ)) ∧
    samplePreimage CRef.Fpr.fl (fun (st : ℕ) _ _ => .ok ((([0, 1, 26, 103] : List ℤ).getD (st % 4) 0), st + 1)) B (.node [1, Complex.I] (.leaf [2]) (.leaf [3])) [2911, 11423] 0 =
      .ok (Falcon.samplePreimage (2 ^ 1) toyKey [2911, 11423] (arrange 1 draws), st') ∧
    IsPreimage (2 ^ 1) toyKey.h [2911, 11423] (Falcon.samplePreimage (2 ^ 1) toyKey [2911, 11423] (arrange 1 draws)).1 (Falcon.samplePreimage (2 ^ 1) toyKey [2911, 11423] (arrange 1 draws)).2 :=
  C110_run CRef.Fpr.fl _ rounds_fpr (k := 1) (by omega) (by omega) toyKey toyIsKey 111 103 (by norm_num) (by norm_num) (by norm_num) (by decide) (fun st c s => ⟨_, _, rfl, by
    have h := Nat.mod_lt st (show 0 < 4 by norm_num)
    generalize st % 4 = j at h
    match j, h with
    | 0, _ => decide
    | 1, _ => decide
    | 2, _ => decide
    | 3, _ => decide⟩) (T := .node [1, Complex.I] (.leaf [2]) (.leaf [3])) ⟨rfl, by simp [Shaped], by simp [Shaped]⟩ rfl 0

end Verif.PyFloat
