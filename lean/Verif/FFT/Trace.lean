import Verif.FFT.Sampling

/-! Recording the calls of the leaf sampler changes nothing else, and the record is a run of the sampler. -/

namespace Verif.FFT

variable {K : Type} [Field K] [StarRing K] [DecidableEq K]

/-- `log` is a run of the sampler from state `st` to state `st'`: consecutive calls (centre, deviation, returned integer), each starting in the state the previous one left. -/
inductive Run {St : Type} (S : LeafSampler St K) : St → List (K × K × Int) → St → Prop where
  | nil (st : St) : Run S st [] st
  | cons {st st' : St} {c s : K} {log : List (K × K × Int)} (h : Run S (S st c (some s)).2 log st') : Run S st ((c, s, (S st c (some s)).1) :: log) st'

theorem Run.append {St : Type} {S : LeafSampler St K} {st st1 st2 : St} {l1 l2 : List (K × K × Int)} (h1 : Run S st l1 st1) (h2 : Run S st1 l2 st2) : Run S st (l1 ++ l2) st2 := by
  induction h1 with
  | nil => exact h2
  | cons _ ih => exact Run.cons (ih h2)

theorem logged_run {St : Type} (R : Nat → Nat → K) (S : LeafSampler St K) : ∀ (fuel : Nat) (t0 t1 : List K) (T : Tree K) (st : St) (l : List (K × K × Int)),
    (∃ e, ffSamplingLoop R S true fuel t0 t1 T st = .error e ∧ ffSamplingLoop R (logged S) true fuel t0 t1 T (st, l) = .error e) ∨
    ∃ z st' log, ffSamplingLoop R S true fuel t0 t1 T st = .ok (z, st') ∧ ffSamplingLoop R (logged S) true fuel t0 t1 T (st, l) = .ok (z, (st', l ++ log)) ∧ Run S st log st' := by
  intro fuel
  induction fuel with
  | zero => intro t0 t1 T st l; exact .inl ⟨_, rfl, rfl⟩
  | succ fuel ih =>
    intro t0 t1 T st l
    unfold ffSamplingLoop
    by_cases h : 1 < t0.length
    · rw [if_pos h, if_pos h]
      rcases T with lf | ⟨l10, T0, T1⟩
      · exact .inl ⟨_, rfl, rfl⟩
      dsimp only
      rcases splitFft R t1 with e | ⟨a, b⟩
      · exact .inl ⟨_, rfl, rfl⟩
      dsimp only
      rcases ih a b T1 st l with ⟨e, e1, e2⟩ | ⟨⟨za, zb⟩, st1, log1, e1, e2, r1⟩
      · rw [e1, e2]; exact .inl ⟨_, rfl, rfl⟩
      rw [e1, e2]
      dsimp only
      rcases mergeFft R za zb with e | z1
      · exact .inl ⟨_, rfl, rfl⟩
      dsimp only
      rcases sub t1 z1 with e | d
      · exact .inl ⟨_, rfl, rfl⟩
      dsimp only
      rcases mulFft d l10 with e | m
      · exact .inl ⟨_, rfl, rfl⟩
      dsimp only
      rcases add t0 m with e | t0b
      · exact .inl ⟨_, rfl, rfl⟩
      dsimp only
      rcases splitFft R t0b with e | ⟨a, b⟩
      · exact .inl ⟨_, rfl, rfl⟩
      dsimp only
      rcases ih a b T0 st1 (l ++ log1) with ⟨e, e1, e2⟩ | ⟨⟨zc, zd⟩, st2, log2, e1, e2, r2⟩
      · rw [e1, e2]; exact .inl ⟨_, rfl, rfl⟩
      rw [e1, e2]
      dsimp only
      rcases mergeFft R zc zd with e | z0
      · exact .inl ⟨_, rfl, rfl⟩
      exact .inr ⟨(z0, z1), st2, log1 ++ log2, rfl, by rw [List.append_assoc], r1.append r2⟩
    · rw [if_neg h, if_neg h]
      by_cases h1 : t0.length = 1
      · rw [if_pos h1, if_pos h1]
        simp only [if_true]
        rcases T with lf | ⟨l10, T0, T1⟩
        swap
        · exact .inl ⟨_, rfl, rfl⟩
        dsimp only
        rcases lf with _ | ⟨sigma, lf⟩
        · exact .inl ⟨_, rfl, rfl⟩
        dsimp only
        rcases t1 with _ | ⟨c1, t1⟩
        · exact .inl ⟨_, rfl, rfl⟩
        right
        refine ⟨_, _, [(re (t0.getD 0 0), sigma, (S st (re (t0.getD 0 0)) (some sigma)).1),
          (re c1, sigma, (S (S st (re (t0.getD 0 0)) (some sigma)).2 (re c1) (some sigma)).1)], rfl, ?_, .cons (.cons (.nil _))⟩
        simp [logged]
      · rw [if_neg h1, if_neg h1]
        exact .inl ⟨_, rfl, rfl⟩

/-- The same for the whole of `sample_preimage`. -/
theorem logged_preimage {St : Type} (R : Nat → Nat → K) (I : K) (S : LeafSampler St K) (rnd : K → Int) (B : Mat K) (T : Tree K) (point : List Int) (st : St)
    {s : List Int × List Int} {st' : St} {log : List (K × K × Int)} (h : samplePreimageFft R I (logged S) rnd B T point (st, []) = .ok (s, (st', log))) :
    samplePreimageFft R I S rnd B T point st = .ok (s, st') ∧ Run S st log st' := by
  unfold samplePreimageFft preimageFft at h ⊢
  rcases hp : fft R I (point.map fun x : Int => (x : K)) with e | p
  · rw [hp] at h; cases h
  rw [hp] at h
  dsimp only at h ⊢
  unfold ffSampling at h ⊢
  rcases logged_run R S ((List.map (fun i => p.getD i 0 * B.d.getD i 0 / 12289) (List.range p.length)).length + 1) (List.map (fun i => p.getD i 0 * B.d.getD i 0 / 12289) (List.range p.length))
    (List.map (fun i => -p.getD i 0 * B.b.getD i 0 / 12289) (List.range p.length)) T st [] with ⟨e, e1, e2⟩ | ⟨⟨z0, z1⟩, st1, log1, e1, e2, r⟩
  · rw [e2] at h; cases h
  rw [e2] at h
  rw [e1]
  dsimp only at h ⊢
  rcases m1 : mulFft z0 B.a with e | x0 <;> rcases m2 : mulFft z1 B.c with e | y0 <;> rcases m3 : mulFft z0 B.b with e | x1 <;> rcases m4 : mulFft z1 B.d with e | y1 <;> rw [m1, m2, m3, m4] at h <;> try cases h
  dsimp only at h ⊢
  rcases a1 : add x0 y0 with e | v0f <;> rcases a2 : add x1 y1 with e | v1f <;> rw [a1, a2] at h <;> try cases h
  dsimp only at h ⊢
  rcases i1 : ifft R I v0f with e | v0 <;> rcases i2 : ifft R I v1f with e | v1 <;> rw [i1, i2] at h <;> try cases h
  dsimp only at h ⊢
  by_cases hl : point.length = v0.length
  · rw [if_pos hl] at h
    rw [if_pos hl]
    injection h with h
    injection h with ha hb
    injection hb with hb hc
    subst ha hb hc
    exact ⟨rfl, by simpa using r⟩
  · rw [if_neg hl] at h; cases h

end Verif.FFT
