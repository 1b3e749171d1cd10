import Verif.CRef.KgGauss
import Verif.CRef.KgProps

/-! # Property C93: C and Python draw the same polynomials -/

namespace Verif.CRef.Kg
open Verif
open Verif.Sampler (Rng Honest le gaussSum smallCoef smallLoop polySmall)

variable {S : Type}

/-- The 64-bit words of a source of bytes: eight bytes, least significant first. -/
def wordsOf (R : Rng S) (s : S) : ℕ × S := (le (R 8 s).1, (R 8 s).2)

theorem word_lt (R : Rng S) (hR : Honest R) (s : S) : le (R 8 s).1 < 2 ^ 64 := by
  obtain ⟨h1, h2⟩ := hR 8 s
  have := Sampler.le_lt _ h2
  rw [h1] at this
  norm_num at this ⊢
  exact this

theorem mkgauss_python (R : Rng S) (hR : Honest R) (k : ℕ) (s : S) : mkgauss (wordsOf R) k s = gaussSum R (2 ^ (10 - k)) 0 s := by
  unfold mkgauss
  have : ∀ (g : ℕ) (l : List ℕ) (v : ℤ) (s : S), l.length = g → l.foldl (fun (st : ℤ × S) _ =>
      let a := wordsOf R st.2
      let b := wordsOf R a.2
      (st.1 + gauss1024 a.1 b.1, b.2)) (v, s) = gaussSum R g v s := by
    intro g
    induction g with
    | zero => intro l v s h; rw [List.length_eq_zero_iff.1 h]; rfl
    | succ g ih =>
      intro l v s h
      cases l with
      | nil => cases h
      | cons x l =>
        rw [List.foldl_cons]
        dsimp only
        rw [show (wordsOf R s).1 = le (R 8 s).1 from rfl, C93_draw _ _ (word_lt R hR s), ih l _ _ (by simpa using h)]
        rfl
  exact this _ _ _ _ (by simp)

theorem coef_mono (R : Rng S) (n k u m : ℕ) : ∀ (a b : ℕ) (s : S) (r : Except Err (ℤ × ℕ × S)), a ≤ b → smallCoef R n k u m a s = some r → smallCoef R n k u m b s = some r := by
  intro a
  induction a with
  | zero => intro b s r _ h; cases h
  | succ a ih =>
    intro b s r hab h
    obtain ⟨b, rfl⟩ : ∃ c, b = c + 1 := ⟨b - 1, by omega⟩
    unfold smallCoef at h ⊢
    cases hm : Sampler.mkgauss R k s with
    | error e => rw [hm] at h; exact h
    | ok x =>
      obtain ⟨v, s1⟩ := x
      rw [hm] at h
      dsimp only at h ⊢
      split at h
      · rename_i hc; rw [if_pos hc]; exact ih b s1 r (by omega) h
      · rename_i hc
        rw [if_neg hc]
        split at h
        · rename_i hu
          rw [if_pos hu]
          split at h
          · rename_i hp; rw [if_pos hp]; exact ih b s1 r (by omega) h
          · rename_i hp; rw [if_neg hp]; exact h
        · rename_i hu; rw [if_neg hu]; exact h

theorem loop_mono (R : Rng S) (n k : ℕ) (a b : ℕ) (hab : a ≤ b) : ∀ (c u m : ℕ) (s : S) (r : List ℤ × S), smallLoop R n k a c u m s = some (.ok r) → smallLoop R n k b c u m s = some (.ok r) := by
  intro c
  induction c with
  | zero => intro u m s r h; exact h
  | succ c ih =>
    intro u m s r h
    unfold smallLoop at h ⊢
    cases hc : smallCoef R n k u m a s with
    | none => rw [hc] at h; cases h
    | some x =>
      rw [hc] at h
      rw [coef_mono R n k u m a b s x hab hc]
      cases x with
      | error e => cases h
      | ok y =>
        obtain ⟨v, m', s'⟩ := y
        dsimp only at h ⊢
        cases hl : smallLoop R n k a c (u + 1) m' s' with
        | none => rw [hl] at h; cases h
        | some x =>
          rw [hl] at h
          cases x with
          | error e => cases h
          | ok y =>
            rw [ih _ _ _ _ hl]
            exact h

theorem python_draw (R : Rng S) (hR : Honest R) (k : ℕ) (hk : k ≤ 10) (s : S) : Sampler.mkgauss R k s = .ok (mkgauss (wordsOf R) k s) := by
  rw [mkgauss_python R hR]
  unfold Sampler.mkgauss
  rw [if_neg (by omega), Nat.one_shiftLeft]

theorem c_to_python (R : Rng S) (hR : Honest R) (k : ℕ) (hk : k ≤ 10) : ∀ (fuel : ℕ) (f : List ℤ) (m : ℕ) (s : S) (r : List ℤ) (s' : S), f.length < 2 ^ k →
    mkgaussPoly (wordsOf R) k fuel f m s = some (r, s') →
    ∃ fuel' t, r = f ++ t ∧ smallLoop R (2 ^ k) k fuel' (2 ^ k - f.length) f.length m s = some (.ok (t, s')) := by
  intro fuel
  induction fuel with
  | zero => intro f m s r s' _ h; cases h
  | succ fuel ih =>
    intro f m s r s' hl h
    unfold mkgaussPoly at h
    dsimp only at h
    have hp := python_draw R hR k hk s
    generalize mkgauss (wordsOf R) k s = w at h hp
    obtain ⟨v, s1⟩ := w
    dsimp only at h
    obtain ⟨c, hc⟩ : ∃ c, 2 ^ k - f.length = c + 1 := ⟨2 ^ k - f.length - 1, by omega⟩
    -- a repeated draw: the same index with more fuel
    have again : (∀ a, smallCoef R (2 ^ k) k f.length m (a + 1) s = smallCoef R (2 ^ k) k f.length m a s1) → mkgaussPoly (wordsOf R) k fuel f m s1 = some (r, s') →
        ∃ fuel' t, r = f ++ t ∧ smallLoop R (2 ^ k) k fuel' (2 ^ k - f.length) f.length m s = some (.ok (t, s')) := by
      intro hstep hrec
      obtain ⟨a, t, h1, h2⟩ := ih f m s1 r s' hl hrec
      refine ⟨a + 1, t, h1, ?_⟩
      rw [hc] at h2 ⊢
      unfold smallLoop at h2 ⊢
      rw [hstep]
      cases hco : smallCoef R (2 ^ k) k f.length m a s1 with
      | none => rw [hco] at h2; cases h2
      | some x =>
        rw [hco] at h2
        cases x with
        | error e => cases h2
        | ok y =>
          obtain ⟨v', m', s2⟩ := y
          dsimp only at h2 ⊢
          cases hlo : smallLoop R (2 ^ k) k a c (f.length + 1) m' s2 with
          | none => rw [hlo] at h2; cases h2
          | some x =>
            rw [hlo] at h2
            cases x with
            | error e => cases h2
            | ok y =>
              rw [loop_mono R (2 ^ k) k a (a + 1) (by omega) _ _ _ _ _ hlo]
              exact h2
    split at h
    · rename_i hb
      refine again (fun a => ?_) h
      conv_lhs => unfold smallCoef
      rw [hp]
      dsimp only
      rw [if_pos hb]
    · rename_i hb
      split at h
      · rename_i hu
        split at h
        · rename_i hpar
          refine again (fun a => ?_) h
          conv_lhs => unfold smallCoef
          rw [hp]
          dsimp only
          rw [if_neg hb, if_pos hu, if_pos hpar]
        · rename_i hpar
          simp only [Option.some.injEq, Prod.mk.injEq] at h
          obtain ⟨rfl, rfl⟩ := h
          refine ⟨1, [v], rfl, ?_⟩
          rw [hc, show c = 0 by omega]
          unfold smallLoop smallCoef
          rw [hp]
          dsimp only
          rw [if_neg hb, if_pos hu, if_neg hpar]
          rfl
      · rename_i hu
        have hl2 : (f ++ [v]).length < 2 ^ k := by rw [List.length_append, List.length_singleton]; omega
        obtain ⟨a, t, h1, h2⟩ := ih (f ++ [v]) _ s1 r s' hl2 h
        refine ⟨a + 1, v :: t, by rw [h1, List.append_assoc]; rfl, ?_⟩
        rw [hc]
        rw [List.length_append, List.length_singleton, show 2 ^ k - (f.length + 1) = c by omega] at h2
        unfold smallLoop
        conv_lhs => unfold smallCoef
        rw [hp]
        dsimp only
        rw [if_neg hb, if_neg hu]
        dsimp only
        rw [loop_mono R (2 ^ k) k a (a + 1) (by omega) _ _ _ _ _ h2]

theorem coef_to_c (R : Rng S) (hR : Honest R) (k : ℕ) (hk : k ≤ 10) (f : List ℤ) (m : ℕ) (v : ℤ) (m' : ℕ) (s' : S) : ∀ (a : ℕ) (s : S), smallCoef R (2 ^ k) k f.length m a s = some (.ok (v, m', s')) →
    ∃ j, 1 ≤ j ∧ ∀ b, mkgaussPoly (wordsOf R) k (b + j) f m s = if f.length = 2 ^ k - 1 then some (f ++ [v], s') else mkgaussPoly (wordsOf R) k b (f ++ [v]) m' s' := by
  intro a
  induction a with
  | zero => intro s h; cases h
  | succ a ih =>
    intro s h
    unfold smallCoef at h
    rw [python_draw R hR k hk s] at h
    have hstep : ∀ b, mkgaussPoly (wordsOf R) k (b + 1) f m s = _ := fun b => by rw [mkgaussPoly]
    generalize mkgauss (wordsOf R) k s = w at h hstep
    obtain ⟨x, s1⟩ := w
    dsimp only at h hstep
    have again : smallCoef R (2 ^ k) k f.length m a s1 = some (.ok (v, m', s')) → (∀ b, mkgaussPoly (wordsOf R) k (b + 1) f m s = mkgaussPoly (wordsOf R) k b f m s1) →
        ∃ j, 1 ≤ j ∧ ∀ b, mkgaussPoly (wordsOf R) k (b + j) f m s = if f.length = 2 ^ k - 1 then some (f ++ [v], s') else mkgaussPoly (wordsOf R) k b (f ++ [v]) m' s' := by
      intro h1 h2
      obtain ⟨j, hj, hj2⟩ := ih s1 h1
      exact ⟨j + 1, by omega, fun b => by rw [← Nat.add_assoc, h2, hj2]⟩
    split at h
    · rename_i hb
      exact again h fun b => by rw [hstep, if_pos hb]
    · rename_i hb
      split at h
      · rename_i hu
        split at h
        · rename_i hpar
          exact again h fun b => by rw [hstep, if_neg hb, if_pos hu, if_pos hpar]
        · rename_i hpar
          simp only [Option.some.injEq, Except.ok.injEq, Prod.mk.injEq] at h
          obtain ⟨rfl, rfl, rfl⟩ := h
          exact ⟨1, le_rfl, fun b => by rw [hstep, if_neg hb, if_pos hu, if_neg hpar, if_pos hu]⟩
      · rename_i hu
        simp only [Option.some.injEq, Except.ok.injEq, Prod.mk.injEq] at h
        obtain ⟨rfl, rfl, rfl⟩ := h
        exact ⟨1, le_rfl, fun b => by rw [hstep, if_neg hb, if_neg hu, if_neg hu]⟩

theorem python_to_c (R : Rng S) (hR : Honest R) (k : ℕ) (hk : k ≤ 10) (fuel : ℕ) : ∀ (c : ℕ) (f : List ℤ) (m : ℕ) (s : S) (t : List ℤ) (s' : S), f.length + (c + 1) = 2 ^ k →
    smallLoop R (2 ^ k) k fuel (c + 1) f.length m s = some (.ok (t, s')) → ∃ fuel', mkgaussPoly (wordsOf R) k fuel' f m s = some (f ++ t, s') := by
  intro c
  induction c with
  | zero =>
    intro f m s t s' hl h
    unfold smallLoop at h
    cases hco : smallCoef R (2 ^ k) k f.length m fuel s with
    | none => rw [hco] at h; cases h
    | some x =>
      rw [hco] at h
      cases x with
      | error e => cases h
      | ok y =>
        obtain ⟨v, m', s2⟩ := y
        dsimp only [smallLoop] at h
        simp only [Option.some.injEq, Except.ok.injEq, Prod.mk.injEq] at h
        obtain ⟨rfl, rfl⟩ := h
        obtain ⟨j, _, hj⟩ := coef_to_c R hR k hk f m v m' s2 fuel s hco
        exact ⟨0 + j, by rw [hj, if_pos (by omega)]⟩
  | succ c ih =>
    intro f m s t s' hl h
    unfold smallLoop at h
    cases hco : smallCoef R (2 ^ k) k f.length m fuel s with
    | none => rw [hco] at h; cases h
    | some x =>
      rw [hco] at h
      cases x with
      | error e => cases h
      | ok y =>
        obtain ⟨v, m', s2⟩ := y
        dsimp only at h
        obtain ⟨j, _, hj⟩ := coef_to_c R hR k hk f m v m' s2 fuel s hco
        cases hlo : smallLoop R (2 ^ k) k fuel (c + 1) (f.length + 1) m' s2 with
        | none => rw [hlo] at h; cases h
        | some x =>
          rw [hlo] at h
          cases x with
          | error e => cases h
          | ok y =>
            obtain ⟨t2, s3⟩ := y
            simp only [Option.some.injEq, Except.ok.injEq, Prod.mk.injEq] at h
            obtain ⟨rfl, rfl⟩ := h
            have hl2 : (f ++ [v]).length = f.length + 1 := by simp
            obtain ⟨b, hb⟩ := ih (f ++ [v]) m' s2 t2 s3 (by rw [hl2]; omega) (by rw [hl2]; exact hlo)
            refine ⟨b + j, ?_⟩
            rw [hj, if_neg (by omega), hb, List.append_assoc]
            rfl

/-- **C93** (C and Python): on the same source of bytes, and for every degree `2^k ≤ 1024`, `poly_small_mkgauss` of the C code and of the Python code return the same polynomials and leave the source in
the same state. -/
theorem C93_python (R : Rng S) (hR : Honest R) (k : ℕ) (hk : k ≤ 10) (s : S) (f : List ℤ) (s' : S) :
    (∃ fuel, mkgaussPoly (wordsOf R) k fuel [] 0 s = some (f, s')) ↔ ∃ fuel, polySmall R (2 ^ k) k fuel s = some (.ok (f, s')) := by
  have h1 : 0 < 2 ^ k := by positivity
  constructor
  · rintro ⟨fuel, h⟩
    obtain ⟨a, t, h1, h2⟩ := c_to_python R hR k hk fuel [] 0 s f s' h1 h
    rw [List.nil_append] at h1
    subst h1
    exact ⟨a, h2⟩
  · rintro ⟨fuel, h⟩
    unfold polySmall at h
    obtain ⟨c, hc⟩ : ∃ c, 2 ^ k = c + 1 := ⟨2 ^ k - 1, by omega⟩
    have := python_to_c R hR k hk fuel c [] 0 s f s' (by simpa using hc.symm) (by rw [← hc]; exact h)
    simpa using this

end Verif.CRef.Kg
