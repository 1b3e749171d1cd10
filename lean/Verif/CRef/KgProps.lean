import Verif.CRef.KgCheck
import Verif.CRef.Norm
import Verif.CRef.Recover
import Mathlib.Data.Nat.Bitwise

/-! # Property C90: what key generation of the C code returns -/

namespace Verif.CRef.Kg
open Verif Verif.Ring Verif.Falcon

/-! ## The values left by the solver -/

/-- Reading a 31-bit two's complement word. -/
theorem oneToPlain_eq (x : ℕ) (hx : x < 2147483648) : oneToPlain x = if x < 1073741824 then (x : ℤ) else (x : ℤ) - 2147483648 := by
  have e : x &&& 0x40000000 = 1073741824 * (x / 1073741824 % 2) := by
    have := Nat.and_two_pow x 30
    rw [show (0x40000000 : ℕ) = 2 ^ 30 by norm_num, this, Nat.testBit_eq_decide_div_mod_eq]
    have h1 : x / 1073741824 % 2 = 0 ∨ x / 1073741824 % 2 = 1 := by omega
    rcases h1 with h1 | h1 <;> norm_num [h1]
  unfold oneToPlain
  rw [e]
  by_cases h : x < 1073741824
  · rw [if_pos h, show x / 1073741824 % 2 = 0 by omega]
    norm_num
    unfold i32
    rw [if_pos (by omega)]
    omega
  · rw [if_neg h, show x / 1073741824 % 2 = 1 by omega]
    have e2 : x ||| (1073741824 * 1) <<< 1 % 4294967296 = x + 2147483648 := by
      rw [show (1073741824 * 1) <<< 1 % 4294967296 = 2147483648 * 1 by decide, Nat.or_comm, show (2147483648 : ℕ) = 2 ^ 31 by norm_num, Nat.two_pow_add_eq_or_of_lt (i := 31) (by norm_num; omega) 1 |>.symm]
      omega
    rw [e2]
    unfold i32
    rw [if_neg (by omega)]
    omega

theorem i8_id (z : ℤ) (h : -128 ≤ z ∧ z ≤ 127) : i8 z = z := by unfold i8; split <;> omega

theorem bigToSmall_fold (s : List ℕ) (lim : ℤ) (hl : lim ≤ 127) (m : ℕ) (d : List ℤ) :
    (List.range m).foldl (fun (d : Option (List Int)) u => match d with
      | none => none
      | some d => let z := oneToPlain s[u]!; if z < -lim ∨ z > lim then none else some (d ++ [i8 z])) (some []) = some d ↔
    d = (List.range m).map (fun u => oneToPlain s[u]!) ∧ ∀ u < m, -lim ≤ oneToPlain s[u]! ∧ oneToPlain s[u]! ≤ lim := by
  induction m generalizing d with
  | zero => simp [eq_comm]
  | succ m ih =>
    rw [List.range_succ, List.foldl_append, List.foldl_cons, List.foldl_nil, List.map_append, List.map_cons, List.map_nil]
    generalize hg : (List.range m).foldl (fun (d : Option (List Int)) u => match d with
      | none => none
      | some d => let z := oneToPlain s[u]!; if z < -lim ∨ z > lim then none else some (d ++ [i8 z])) (some []) = r at ih ⊢
    cases r with
    | none =>
      constructor
      · intro h; cases h
      · rintro ⟨_, h⟩
        have := (ih _).2 ⟨rfl, fun u hu => h u (by omega)⟩
        cases this
    | some e =>
      obtain ⟨h1, h2⟩ := (ih e).1 rfl
      dsimp only
      by_cases hz : oneToPlain s[m]! < -lim ∨ oneToPlain s[m]! > lim
      · rw [if_pos hz]
        constructor
        · intro h; cases h
        · rintro ⟨_, h⟩
          have := h m (by omega)
          omega
      · rw [if_neg hz, i8_id _ (by omega), h1]
        constructor
        · intro h
          refine ⟨(Option.some.inj h).symm, fun u hu => ?_⟩
          rcases Nat.lt_succ_iff_lt_or_eq.1 hu with hu | rfl
          · exact h2 u hu
          · omega
        · rintro ⟨h, _⟩; rw [h]

theorem bigToSmall_iff (s : List ℕ) (lim : ℤ) (hl : lim ≤ 127) (k : ℕ) (d : List ℤ) :
    bigToSmall s lim k = some d ↔ d = (List.range (2 ^ k)).map (fun u => oneToPlain s[u]!) ∧ ∀ u < 2 ^ k, -lim ≤ oneToPlain s[u]! ∧ oneToPlain s[u]! ≤ lim :=
  bigToSmall_fold s lim hl _ d

theorem bigToSmall_facts (s : List ℕ) (lim : ℤ) (hl : lim ≤ 127) (k : ℕ) (d : List ℤ) (h : bigToSmall s lim k = some d) : d.length = 2 ^ k ∧ Within lim d := by
  obtain ⟨rfl, h2⟩ := (bigToSmall_iff s lim hl k d).1 h
  refine ⟨by simp, ?_⟩
  intro x hx
  obtain ⟨u, hu, rfl⟩ := List.mem_map.1 hx
  exact h2 u (List.mem_range.1 hu)

/-- A buffer whose first `n` words are the 31-bit two's complement forms of the coefficients of `a`. -/
def Holds (n : ℕ) (w : List ℕ) (a : List ℤ) : Prop := a.length = n ∧ ∀ i < n, (w[i]! : ℤ) = a[i]! % 2147483648

theorem bigToSmall_holds (s : List ℕ) (hs : ∀ u : ℕ, s[u]! < 2147483648) (lim : ℤ) (hl : lim ≤ 127) (k : ℕ) (d : List ℤ) :
    bigToSmall s lim k = some d ↔ Holds (2 ^ k) s d ∧ Within lim d := by
  have key : ∀ u : ℕ, ∀ z : ℤ, -127 ≤ z ∧ z ≤ 127 → ((s[u]! : ℤ) = z % 2147483648 ↔ oneToPlain s[u]! = z) := by
    intro u z hz
    have := hs u
    rw [oneToPlain_eq _ this]
    split <;> omega
  constructor
  · intro h
    obtain ⟨f1, f2⟩ := bigToSmall_facts s lim hl k d h
    obtain ⟨rfl, h2⟩ := (bigToSmall_iff s lim hl k d).1 h
    refine ⟨⟨f1, fun i hi => ?_⟩, f2⟩
    have e : ((List.range (2 ^ k)).map fun u => oneToPlain s[u]!)[i]! = oneToPlain s[i]! := by
      rw [getElem!_pos _ i (by simpa using hi)]; simp
    rw [e]
    have := h2 i hi
    exact (key i _ (by omega)).2 rfl
  · rintro ⟨⟨h1, h2⟩, h3⟩
    have hb : ∀ i : ℕ, i < 2 ^ k → -lim ≤ d[i]! ∧ d[i]! ≤ lim := by
      intro i hi
      rw [getElem!_pos d i (by omega)]
      exact h3 _ (List.getElem_mem _)
    have hz : ∀ i : ℕ, i < 2 ^ k → oneToPlain s[i]! = d[i]! := by
      intro i hi
      have := hb i hi
      exact (key i _ (by omega)).1 (h2 i hi)
    refine (bigToSmall_iff s lim hl k d).2 ⟨?_, fun u hu => by rw [hz u hu]; exact hb u hu⟩
    refine List.ext_getElem (by simpa using h1) fun i h4 h5 => ?_
    rw [List.getElem_map, List.getElem_range, hz i (by omega), getElem!_pos d i h4]

theorem solveNTRU_iff (solver : Solver) (k : ℕ) (mem : List ℕ) (f g F G : List ℤ) (lim : ℤ) : solveNTRU solver k mem f g lim = some (F, G) ↔
    ∃ fw gw, solver f g = some (fw, gw) ∧ bigToSmall fw lim k = some F ∧ bigToSmall gw lim k = some G ∧ checkNTRU k mem f g F G = true := by
  unfold solveNTRU
  cases hs : solver f g with
  | none => simp
  | some w =>
    obtain ⟨fw, gw⟩ := w
    simp only
    cases hF : bigToSmall fw lim k with
    | none => simp [hF]
    | some F' =>
      simp only
      cases hG : bigToSmall gw lim k with
      | none => simp [hG]
      | some G' =>
        simp only
        split
        · rename_i hc
          constructor
          · intro h
            simp only [Option.some.injEq, Prod.mk.injEq] at h
            obtain ⟨rfl, rfl⟩ := h
            exact ⟨fw, gw, rfl, hF, hG, hc⟩
          · rintro ⟨fw', gw', h1, h2, h3, h4⟩
            simp only [Option.some.injEq, Prod.mk.injEq] at h1
            obtain ⟨rfl, rfl⟩ := h1
            rw [hF] at h2; rw [hG] at h3
            rw [Option.some.inj h2, Option.some.inj h3]
        · rename_i hc
          constructor
          · intro h; cases h
          · rintro ⟨fw', gw', h1, h2, h3, h4⟩
            simp only [Option.some.injEq, Prod.mk.injEq] at h1
            obtain ⟨rfl, rfl⟩ := h1
            rw [hF] at h2; rw [hG] at h3
            rw [Option.some.inj h2, Option.some.inj h3] at hc
            exact absurd h4 hc

/-- **C90** (solving): whatever the solver computes, `solve_NTRU` succeeds with `(F, G)` exactly when the solver has left `F` and `G` as 31-bit words, their coefficients lie in `[-lim, lim]`, and
`f*G - g*F = q` holds over the integers. -/
theorem C90_solve (solver : Solver) (k : ℕ) (hk : k ≤ 10) (mem : List ℕ) (hm : mem.length = 2 ^ k) (f g : List ℤ) (hf : f.length = 2 ^ k) (hg : g.length = 2 ^ k)
    (bf : ∀ x ∈ f, -128 ≤ x ∧ x ≤ 127) (bg : ∀ x ∈ g, -128 ≤ x ∧ x ≤ 127) (lim : ℤ) (hl : lim ≤ 127)
    (hw : ∀ fw gw, solver f g = some (fw, gw) → (∀ u : ℕ, fw[u]! < 2147483648) ∧ ∀ u : ℕ, gw[u]! < 2147483648) (F G : List ℤ) :
    solveNTRU solver k mem f g lim = some (F, G) ↔
      (∃ fw gw, solver f g = some (fw, gw) ∧ Holds (2 ^ k) fw F ∧ Holds (2 ^ k) gw G) ∧ Within lim F ∧ Within lim G ∧ IsNtru (2 ^ k) f g F G := by
  have w : ∀ a, Within lim a → ∀ x ∈ a, -128 ≤ x ∧ x ≤ 127 := fun a ha x hx => by have := ha x hx; omega
  rw [solveNTRU_iff]
  constructor
  · rintro ⟨fw, gw, h1, h2, h3, h4⟩
    obtain ⟨w1, w2⟩ := hw fw gw h1
    obtain ⟨a1, a2⟩ := (bigToSmall_holds fw w1 lim hl k F).1 h2
    obtain ⟨b1, b2⟩ := (bigToSmall_holds gw w2 lim hl k G).1 h3
    exact ⟨⟨fw, gw, h1, a1, b1⟩, a2, b2, (C90_check k hk mem hm f g F G hf hg a1.1 b1.1 bf bg (w F a2) (w G b2)).1 h4⟩
  · rintro ⟨⟨fw, gw, h1, a1, b1⟩, a2, b2, h4⟩
    obtain ⟨w1, w2⟩ := hw fw gw h1
    exact ⟨fw, gw, h1, (bigToSmall_holds fw w1 lim hl k F).2 ⟨a1, a2⟩, (bigToSmall_holds gw w2 lim hl k G).2 ⟨b1, b2⟩,
      (C90_check k hk mem hm f g F G hf hg a1.1 b1.1 bf bg (w F a2) (w G b2)).2 h4⟩

/-! ## The random polynomials -/

theorem xor_par (m : ℕ) (hm : m < 2) (s : ℤ) : m ^^^ (s % 2).toNat = ((m + s) % 2).toNat := by
  have h : (s % 2).toNat = 0 ∨ (s % 2).toNat = 1 := by omega
  have h2 : m = 0 ∨ m = 1 := by omega
  rcases h with h | h <;> rcases h2 with rfl | rfl <;> rw [h] <;> norm_num <;> omega

theorem mkgaussPoly_ok {σ : Type} (next : σ → ℕ × σ) (k : ℕ) : ∀ (fuel : ℕ) (f : List ℤ) (m : ℕ) (st : σ) (r : List ℤ) (st' : σ), f.length < 2 ^ k → Within 127 f → (m : ℤ) = f.sum % 2 →
    mkgaussPoly next k fuel f m st = some (r, st') → r.length = 2 ^ k ∧ Within 127 r ∧ r.sum % 2 = 1 := by
  intro fuel
  induction fuel with
  | zero => intro f m st r st' _ _ _ h; cases h
  | succ fuel ih =>
    intro f m st r st' hl hw hm h
    unfold mkgaussPoly at h
    dsimp only at h
    generalize hs : mkgauss next k st = g at h
    obtain ⟨s, st1⟩ := g
    dsimp only at h
    have hx := xor_par m (by omega) s
    split at h
    · exact ih f m st1 r st' hl hw hm h
    · rename_i hb
      have hw2 : Within 127 (f ++ [s]) := by
        intro x hx
        rcases List.mem_append.1 hx with hx | hx
        · exact hw x hx
        · rw [List.mem_singleton.1 hx]; omega
      split at h
      · rename_i hlen
        split at h
        · exact ih f m st1 r st' hl hw hm h
        · rename_i hp
          simp only [Option.some.injEq, Prod.mk.injEq] at h
          obtain ⟨rfl, _⟩ := h
          refine ⟨by rw [List.length_append, List.length_singleton]; omega, hw2, ?_⟩
          rw [List.sum_append, List.sum_singleton]
          rw [hx] at hp
          omega
      · rename_i hlen
        refine ih (f ++ [s]) _ st1 r st' (by rw [List.length_append, List.length_singleton]; omega) hw2 ?_ h
        rw [hx, List.sum_append, List.sum_singleton]
        omega

/-- **C90** (random polynomials): whatever the random words, a polynomial returned by `poly_small_mkgauss` has `2^k` coefficients in `[-127, 127]` and an odd sum. -/
theorem C90_mkgauss {σ : Type} (next : σ → ℕ × σ) (k fuel : ℕ) (st : σ) (r : List ℤ) (st' : σ) (h : mkgaussPoly next k fuel [] 0 st = some (r, st')) :
    r.length = 2 ^ k ∧ Within 127 r ∧ r.sum % 2 = 1 :=
  mkgaussPoly_ok next k fuel [] 0 st r st' (by simp) (by intro x hx; cases hx) (by simp) h

/-! ## The norm -/

theorem sqnorm_eq (k : ℕ) (hk : k ≤ 10) (f : List ℤ) (hf : f.length = 2 ^ k) (bf : Within 127 f) : sqnorm f k = nsq f ∧ nsq f ≤ 16129 * 1024 := by
  have hv : Vec16 (2 ^ k) f := ⟨hf, fun x hx => by have := bf x hx; unfold IsInt16; omega⟩
  have hb : nsq f ≤ 16129 * f.length := by
    have : ∀ l : List ℤ, Within 127 l → nsq l ≤ 16129 * l.length := by
      intro l
      induction l with
      | nil => intro _; exact Nat.zero_le _
      | cons a l ih =>
        intro h
        have h1 := ih fun x hx => h x (List.mem_cons_of_mem _ hx)
        have h2 := h a List.mem_cons_self
        have h3 : a * a ≤ 16129 := by nlinarith
        have h4 : (a * a).toNat ≤ 16129 := by omega
        unfold nsq at h1 ⊢
        rw [List.map_cons, List.sum_cons, List.length_cons]
        omega
    exact this f bf
  have hn : (2 : ℕ) ^ k ≤ 1024 := le_trans (Nat.pow_le_pow_right (by norm_num) hk) (by norm_num)
  have hb2 : nsq f ≤ 16129 * 1024 := le_trans hb (by rw [hf]; omega)
  have h := fold_half f (2 ^ k) hv 0 0 (by rw [show neg32 (0 >>> 31) = 0 by decide]; exact ⟨by decide, by decide, Or.inl (by decide)⟩) (2 ^ k) le_rfl
  rw [show neg32 (0 >>> 31) = 0 by decide, List.take_of_length_le hf.le, Nat.zero_add] at h
  obtain ⟨h1, h2, h3⟩ := h
  refine ⟨?_, hb2⟩
  rcases h3 with ⟨a, e, c⟩ | ⟨a, _⟩
  · unfold sqnorm
    dsimp only
    rw [shift31 _ h2, if_pos c, show neg32 0 = 0 by decide, Nat.or_zero, e]
  · omega

theorem norm_eq (k : ℕ) (hk : k ≤ 10) (f g : List ℤ) (hf : f.length = 2 ^ k) (hg : g.length = 2 ^ k) (bf : Within 127 f) (bg : Within 127 g) :
    ((add32 (sqnorm f k) (sqnorm g k) ||| neg32 ((sqnorm f k ||| sqnorm g k) >>> 31) : ℕ) : ℤ) = normSq f + normSq g := by
  obtain ⟨a1, a2⟩ := sqnorm_eq k hk f hf bf
  obtain ⟨b1, b2⟩ := sqnorm_eq k hk g hg bg
  rw [a1, b1, ← nsq_normSq, ← nsq_normSq]
  have h : nsq f ||| nsq g < 2 ^ 31 := Nat.or_lt_two_pow (by norm_num; omega) (by norm_num; omega)
  rw [Nat.shiftRight_eq_div_pow, Nat.div_eq_of_lt h, show neg32 0 = 0 by decide, Nat.or_zero]
  unfold add32
  rw [Nat.mod_eq_of_lt (by omega)]
  norm_cast

/-! ## Key generation -/

/-- What is asked of a candidate `(f, g)` and of what the solver makes of it; `bf` is the largest coefficient of `f` and `g`. -/
structure Good (k : ℕ) (bf : ℤ) (solver : Solver) (orth : List ℤ → List ℤ → Bool) (f g F G : List ℤ) (h : List ℕ) : Prop where
  fBound : Within bf f
  gBound : Within bf g
  norm : normSq f + normSq g ≤ 16822
  orthogonal : orth f g = true
  unit : IsUnitPoly (2 ^ k) (zq f)
  canon : Poly (2 ^ k) h
  pub : negMul (2 ^ k) (NTT.toZ 12289 h) (zq f) = zq g
  solved : ∃ fw gw, solver f g = some (fw, gw) ∧ Holds (2 ^ k) fw F ∧ Holds (2 ^ k) gw G
  FBound : Within 127 F
  GBound : Within 127 G
  ntru : IsNtru (2 ^ k) f g F G

theorem maxFG (k : ℕ) (hk : k ≤ 10) (h1 : 1 ≤ k) : maxFGBits[k]! = 8 := by
  interval_cases k <;> rfl

theorem maxFg_bound (k : ℕ) (hk : k ≤ 10) (h1 : 1 ≤ k) : maxFgBits[k]! = 5 ∨ maxFgBits[k]! = 6 ∨ maxFgBits[k]! = 7 ∨ maxFgBits[k]! = 8 := by
  interval_cases k <;> decide

theorem any_out (k : ℕ) (f g : List ℤ) (hf : f.length = 2 ^ k) (hg : g.length = 2 ^ k) (lim : ℤ) :
    (List.range (2 ^ k)).any (fun u => decide (f[u]! ≥ lim) || decide (f[u]! ≤ -lim) || decide (g[u]! ≥ lim) || decide (g[u]! ≤ -lim)) = false ↔ Within (lim - 1) f ∧ Within (lim - 1) g := by
  rw [List.any_eq_false]
  have key : ∀ a : List ℤ, a.length = 2 ^ k → (Within (lim - 1) a ↔ ∀ u < 2 ^ k, -(lim - 1) ≤ a[u]! ∧ a[u]! ≤ lim - 1) := by
    intro a ha
    constructor
    · intro h u hu
      rw [getElem!_pos a u (by omega)]
      exact h _ (List.getElem_mem _)
    · intro h x hx
      obtain ⟨u, hu, rfl⟩ := List.mem_iff_getElem.1 hx
      have := h u (by omega)
      rwa [getElem!_pos a u hu] at this
  rw [key f hf, key g hg]
  simp only [List.mem_range, Bool.or_eq_true, decide_eq_true_eq, not_or]
  constructor
  · intro h
    exact ⟨fun u hu => by have := h u hu; omega, fun u hu => by have := h u hu; omega⟩
  · rintro ⟨h1, h2⟩ u hu
    have := h1 u hu
    have := h2 u hu
    omega

/-- The part of a round after the two polynomials are drawn. -/
def judge (solver : Solver) (mem : List ℕ) (orth : List ℤ → List ℤ → Bool) (k : ℕ) (f g : List ℤ) : Option (List ℤ × List ℤ × List ℕ) :=
  if (List.range (2 ^ k)).any (fun u => decide (f[u]! ≥ 2 ^ (maxFgBits[k]! - 1)) || decide (f[u]! ≤ -2 ^ (maxFgBits[k]! - 1)) || decide (g[u]! ≥ 2 ^ (maxFgBits[k]! - 1)) ||
    decide (g[u]! ≤ -2 ^ (maxFgBits[k]! - 1))) = true then none
  else if add32 (sqnorm f k) (sqnorm g k) ||| neg32 ((sqnorm f k ||| sqnorm g k) >>> 31) ≥ 16823 then none
  else if (!orth f g) = true then none
  else match computePublic k f g with
    | none => none
    | some h => (solveNTRU solver k mem f g (2 ^ (maxFGBits[k]! - 1) - 1)).map fun r => (r.1, r.2, h)

theorem keygen_succ {σ : Type} (next : σ → ℕ × σ) (solver : Solver) (mem : List ℕ) (orth : List ℤ → List ℤ → Bool) (k draws fuel : ℕ) (st : σ) :
    keygen next solver mem orth k draws (fuel + 1) st =
      match mkgaussPoly next k draws [] 0 st with
      | none => none
      | some (f, st) =>
        match mkgaussPoly next k draws [] 0 st with
        | none => none
        | some (g, st) => match judge solver mem orth k f g with
          | none => keygen next solver mem orth k draws fuel st
          | some (F, G, h) => some (f, g, F, G, h) := by
  rw [keygen]
  cases mkgaussPoly next k draws [] 0 st with
  | none => rfl
  | some a =>
    obtain ⟨f, st1⟩ := a
    dsimp only
    cases mkgaussPoly next k draws [] 0 st1 with
    | none => rfl
    | some b =>
      obtain ⟨g, st2⟩ := b
      dsimp only
      unfold judge
      split
      · rfl
      · split
        · rfl
        · split
          · rfl
          · cases computePublic k f g with
            | none => rfl
            | some h =>
              dsimp only
              cases solveNTRU solver k mem f g (2 ^ (maxFGBits[k]! - 1) - 1) with
              | none => rfl
              | some r => rfl

theorem judge_iff (solver : Solver) (mem : List ℕ) (orth : List ℤ → List ℤ → Bool) (k : ℕ) (h1 : 1 ≤ k) (hk : k ≤ 10) (f g : List ℤ) (hf : f.length = 2 ^ k) (hg : g.length = 2 ^ k)
    (bf : Within 127 f) (bg : Within 127 g) (F G : List ℤ) (h : List ℕ) :
    judge solver mem orth k f g = some (F, G, h) ↔ Within (2 ^ (maxFgBits[k]! - 1) - 1) f ∧ Within (2 ^ (maxFgBits[k]! - 1) - 1) g ∧ normSq f + normSq g ≤ 16822 ∧ orth f g = true ∧
      (IsUnitPoly (2 ^ k) (zq f) ∧ Poly (2 ^ k) h ∧ negMul (2 ^ k) (NTT.toZ 12289 h) (zq f) = zq g) ∧ solveNTRU solver k mem f g 127 = some (F, G) := by
  have w : ∀ a, Within 127 a → ∀ x ∈ a, -128 ≤ x ∧ x ≤ 127 := fun a ha x hx => by have := ha x hx; omega
  have hp := C85_compute_public (k := k) hk f g hf hg (w f bf) (w g bg) h
  have ho := any_out k f g hf hg (2 ^ (maxFgBits[k]! - 1))
  have hn := norm_eq k hk f g hf hg bf bg
  rw [← hp]
  unfold judge
  rw [maxFG k hk h1]
  generalize hN : (add32 (sqnorm f k) (sqnorm g k) ||| neg32 ((sqnorm f k ||| sqnorm g k) >>> 31)) = N at hn ⊢
  rw [show ((2 : ℤ) ^ (8 - 1) - 1) = 127 by norm_num]
  split
  · rename_i hc
    constructor
    · intro h; cases h
    · rintro ⟨a, b, _⟩
      rw [ho.2 ⟨a, b⟩] at hc
      cases hc
  · rename_i hc
    obtain ⟨a, b⟩ := ho.1 (by simpa using hc)
    split
    · rename_i hc2
      constructor
      · intro h; cases h
      · rintro ⟨_, _, h2, _⟩
        omega
    · rename_i hc2
      have h2 : normSq f + normSq g ≤ 16822 := by omega
      split
      · rename_i hc3
        constructor
        · intro h; cases h
        · rintro ⟨_, _, _, h3, _⟩
          rw [h3] at hc3; cases hc3
      · rename_i hc3
        have h3 : orth f g = true := by simpa using hc3
        cases hcp : computePublic k f g with
        | none => simp
        | some h' =>
          dsimp only
          constructor
          · intro hj
            obtain ⟨r, hr, he⟩ := Option.map_eq_some_iff.1 hj
            simp only [Prod.mk.injEq] at he
            obtain ⟨rfl, rfl, rfl⟩ := he
            exact ⟨a, b, h2, h3, rfl, hr⟩
          · rintro ⟨_, _, _, _, h5, h6⟩
            rw [h6, Option.some.inj h5]
            rfl

/-- **C90** (one round): let the round draw `f` and `g`.  It ends with `(f, g, F, G, h)` exactly when the candidate is good: coefficients of at most `2^(max_fg_bits-1) - 1`, squared norm at most 16822,
the test of the orthogonalized norm passed, `f` invertible modulo q with `h = g/f`, and the solver's words are an `F` and a `G` with coefficients in `[-127, 127]` and `f*G - g*F = q`.  If no `F`, `G`, `h`
make it good, key generation goes on with a new candidate. -/
theorem C90_round {σ : Type} (next : σ → ℕ × σ) (solver : Solver) (mem : List ℕ) (orth : List ℤ → List ℤ → Bool) (k draws fuel : ℕ) (h1 : 1 ≤ k) (hk : k ≤ 10) (hm : mem.length = 2 ^ k)
    (hw : ∀ f g fw gw, solver f g = some (fw, gw) → (∀ u : ℕ, fw[u]! < 2147483648) ∧ ∀ u : ℕ, gw[u]! < 2147483648)
    (st st1 st2 : σ) (f g : List ℤ) (d1 : mkgaussPoly next k draws [] 0 st = some (f, st1)) (d2 : mkgaussPoly next k draws [] 0 st1 = some (g, st2)) :
    (∀ F G h, Good k (2 ^ (maxFgBits[k]! - 1) - 1) solver orth f g F G h → keygen next solver mem orth k draws (fuel + 1) st = some (f, g, F, G, h)) ∧
    ((¬ ∃ F G h, Good k (2 ^ (maxFgBits[k]! - 1) - 1) solver orth f g F G h) → keygen next solver mem orth k draws (fuel + 1) st = keygen next solver mem orth k draws fuel st2) := by
  obtain ⟨l1, b1, _⟩ := C90_mkgauss next k draws st f st1 d1
  obtain ⟨l2, b2, _⟩ := C90_mkgauss next k draws st1 g st2 d2
  have w : ∀ a, Within 127 a → ∀ x ∈ a, -128 ≤ x ∧ x ≤ 127 := fun a ha x hx => by have := ha x hx; omega
  have hj := judge_iff solver mem orth k h1 hk f g l1 l2 b1 b2
  have hs := C90_solve solver k hk mem hm f g l1 l2 (w f b1) (w g b2) 127 le_rfl (hw f g)
  have hg : ∀ F G h, judge solver mem orth k f g = some (F, G, h) ↔ Good k (2 ^ (maxFgBits[k]! - 1) - 1) solver orth f g F G h := by
    intro F G h
    rw [hj, hs]
    constructor
    · rintro ⟨a, b, c, d, ⟨e1, e2, e3⟩, s1, s2, s3, s4⟩
      exact ⟨a, b, c, d, e1, e2, e3, s1, s2, s3, s4⟩
    · rintro ⟨a, b, c, d, e1, e2, e3, s1, s2, s3, s4⟩
      exact ⟨a, b, c, d, ⟨e1, e2, e3⟩, s1, s2, s3, s4⟩
  rw [keygen_succ, d1]
  dsimp only
  rw [d2]
  dsimp only
  constructor
  · intro F G h hgood
    rw [(hg F G h).2 hgood]
  · intro hno
    cases hjj : judge solver mem orth k f g with
    | none => rfl
    | some r =>
      obtain ⟨F, G, h⟩ := r
      exact absurd ⟨F, G, h, (hg F G h).1 hjj⟩ hno

/-- **C90** (key generation): for every degree `2^k` from 2 to 1024, every source of random words, every solver and every floating-point test, whatever key generation returns is a Falcon key. -/
theorem C90_keygen {σ : Type} (next : σ → ℕ × σ) (solver : Solver) (mem : List ℕ) (orth : List ℤ → List ℤ → Bool) (k draws : ℕ) (h1 : 1 ≤ k) (hk : k ≤ 10) (hm : mem.length = 2 ^ k)
    (fuel : ℕ) (st : σ) (f g F G : List ℤ) (h : List ℕ) (hr : keygen next solver mem orth k draws fuel st = some (f, g, F, G, h)) :
    IsFalconKey (2 ^ k) (2 ^ (maxFgBits[k]! - 1) - 1) f g F G h := by
  induction fuel generalizing st with
  | zero => cases hr
  | succ fuel ih =>
    rw [keygen_succ] at hr
    cases d1 : mkgaussPoly next k draws [] 0 st with
    | none => rw [d1] at hr; cases hr
    | some a =>
      obtain ⟨f', st1⟩ := a
      rw [d1] at hr
      dsimp only at hr
      cases d2 : mkgaussPoly next k draws [] 0 st1 with
      | none => rw [d2] at hr; cases hr
      | some b =>
        obtain ⟨g', st2⟩ := b
        rw [d2] at hr
        dsimp only at hr
        obtain ⟨l1, b1, o1⟩ := C90_mkgauss next k draws st f' st1 d1
        obtain ⟨l2, b2, o2⟩ := C90_mkgauss next k draws st1 g' st2 d2
        cases hj : judge solver mem orth k f' g' with
        | none => rw [hj] at hr; exact ih st2 hr
        | some r =>
          obtain ⟨F', G', h'⟩ := r
          rw [hj] at hr
          simp only [Option.some.injEq, Prod.mk.injEq] at hr
          obtain ⟨rfl, rfl, rfl, rfl, rfl⟩ := hr
          obtain ⟨a, b, c, d, ⟨e1, e2, e3⟩, s⟩ := (judge_iff solver mem orth k h1 hk f' g' l1 l2 b1 b2 _ _ _).1 hj
          obtain ⟨fw, gw, s1, s2, s3, s4⟩ := (solveNTRU_iff solver k mem f' g' F' G' 127).1 s
          obtain ⟨p1, p2⟩ := bigToSmall_facts fw 127 le_rfl k F' s2
          obtain ⟨q1, q2⟩ := bigToSmall_facts gw 127 le_rfl k G' s3
          have w : ∀ a, Within 127 a → ∀ x ∈ a, -128 ≤ x ∧ x ≤ 127 := fun a ha x hx => by have := ha x hx; omega
          exact ⟨(C90_check k hk mem hm f' g' F' G' l1 l2 p1 q1 (w _ b1) (w _ b2) (w _ p2) (w _ q2)).1 s4, a, b, p2, q2, o1, o2, c, e1, e2, e3⟩

end Verif.CRef.Kg
