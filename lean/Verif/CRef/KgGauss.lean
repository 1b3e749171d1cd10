import Verif.CRef.Keygen
import Verif.CRef.Arith
import Verif.Sampler.Props
import Verif.Sampler.Law
import Mathlib.Order.Interval.Finset.Nat

/-! # Property C93: the Gaussian source of the C code -/

namespace Verif.CRef.Kg
open Verif
open Verif.Sampler (gaussTable magnitude gaussDraw weight keyVar Rng Honest le)

/-! ## The same draw as in Python -/

/-- **C93**: the C table and the Python table of key generation are equal. -/
theorem C93_table : gauss = gaussTable := by decide +kernel

theorem gauss_get : ∀ k < 27, gauss[k]! = gaussTable.getD k 0 ∧ gauss[k]! < 9223372036854775808 := by decide +kernel

theorem sub64_top (r g : ℕ) (hr : r < 9223372036854775808) (hg : g < 9223372036854775808) : (sub64 r g >>> 63) % 4294967296 = if r < g then 1 else 0 := by
  unfold sub64
  rw [Nat.shiftRight_eq_div_pow]
  split <;> omega

theorem and_neg (k b : ℕ) (hk : k < 4294967296) (hb : b < 2) : k &&& neg32 b = if b = 1 then k else 0 := by
  have h : b = 0 ∨ b = 1 := by omega
  rcases h with rfl | rfl
  · rw [show neg32 0 = 0 by decide, Nat.and_zero, if_neg (by decide)]
  · rw [show neg32 1 = 2 ^ 32 - 1 by decide, Nat.and_two_pow_sub_one_eq_mod, Nat.mod_eq_of_lt (by norm_num; exact hk), if_pos rfl]

theorem scan_eq (r : ℕ) (hr : r < 9223372036854775808) (ks : List ℕ) (hk : ∀ k ∈ ks, k < 27) : ∀ v f, f < 2 →
    (ks.foldl (fun st k => gaussScan r st k) (v, f)).1 = Sampler.gaussScan r ks f v := by
  induction ks with
  | nil => intro v f _; rfl
  | cons k ks ih =>
    intro v f hf
    obtain ⟨g1, g2⟩ := gauss_get k (hk k (by simp))
    have hk27 := hk k (by simp)
    rw [List.foldl_cons]
    unfold Sampler.gaussScan
    rw [show gaussScan r (v, f) k = (v ||| (k &&& neg32 (((sub64 r gauss[k]! >>> 63) % 4294967296 ^^^ 1) &&& (f ^^^ 1))), f ||| ((sub64 r gauss[k]! >>> 63) % 4294967296 ^^^ 1)) from rfl]
    rw [sub64_top r _ hr g2, g1]
    obtain ⟨t, ht⟩ : ∃ t, ((if r < gaussTable.getD k 0 then 1 else 0) ^^^ 1 : ℕ) = t := ⟨_, rfl⟩
    have ht2 : t < 2 := by
      rw [← ht]; split <;> decide
    simp only [ht]
    have hb : t &&& (f ^^^ 1) < 2 := lt_of_le_of_lt Nat.and_le_left ht2
    rw [and_neg k _ (by omega) hb]
    exact ih (fun k hk' => hk k (by simp [hk'])) _ _ (Nat.or_lt_two_pow (n := 1) hf ht2)

/-- **C93**: on the same two 64-bit words the C code and the Python code draw the same value. -/
theorem C93_draw (r1 r2 : ℕ) (h1 : r1 < 2 ^ 64) : gauss1024 r1 r2 = gaussDraw r1 r2 := by
  unfold gauss1024 gaussDraw
  dsimp only
  have m : ∀ r : ℕ, r &&& 0x7FFFFFFFFFFFFFFF = r % 2 ^ 63 := fun r => Nat.and_two_pow_sub_one_eq_mod r 63
  rw [m, m]
  obtain ⟨g1, g2⟩ := gauss_get 0 (by norm_num)
  have b1 : r1 % 2 ^ 63 < 9223372036854775808 := Nat.mod_lt _ (by norm_num)
  have b2 : r2 % 2 ^ 63 < 9223372036854775808 := Nat.mod_lt _ (by norm_num)
  rw [sub64_top _ _ b1 g2, g1]
  obtain ⟨f, hf⟩ : ∃ f, (if r1 % 2 ^ 63 < gaussTable.getD 0 0 then 1 else 0 : ℕ) = f := ⟨_, rfl⟩
  have hf2 : f < 2 := by rw [← hf]; split <;> decide
  rw [hf]
  have hs := scan_eq (r2 % 2 ^ 63) b2 ((List.range 26).map (· + 1)) (by
    intro k hk
    obtain ⟨j, hj, rfl⟩ := List.mem_map.1 hk
    have := List.mem_range.1 hj
    omega) 0 f hf2
  rw [List.foldl_map] at hs
  rw [hs]
  generalize Sampler.gaussScan (r2 % 2 ^ 63) ((List.range 26).map (· + 1)) f 0 = v
  have hn : r1 >>> 63 < 2 := by rw [Nat.shiftRight_eq_div_pow]; omega
  generalize r1 >>> 63 = n at hn
  have e : neg32 n = (2 ^ 32 - n) % 2 ^ 32 := by
    have : n = 0 ∨ n = 1 := by omega
    rcases this with rfl | rfl <;> decide
  rw [e]
  unfold add32 i32
  norm_num
  split <;> split <;> omega

/-- The value of one draw: the sign is the top bit of the first word, the value is 0 if the other 63 bits of that word are below entry 0 of the table, and otherwise its absolute value is the least
`m ≥ 1` for which entry `m` is at most the low 63 bits of the second word. -/
theorem C93_value (r1 r2 : ℕ) (h1 : r1 < 2 ^ 64) (z : ℤ) : gauss1024 r1 r2 = z ↔
    (z = 0 ∧ r1 % 2 ^ 63 < gauss[0]!) ∨
    (gauss[0]! ≤ r1 % 2 ^ 63 ∧ 1 ≤ z.natAbs ∧ z.natAbs ≤ 26 ∧ (0 < z ↔ r1 < 2 ^ 63) ∧ gauss[z.natAbs]! ≤ r2 % 2 ^ 63 ∧ ∀ j : ℕ, 1 ≤ j → j < z.natAbs → r2 % 2 ^ 63 < gauss[j]!) := by
  rw [C93_draw r1 r2 h1, Sampler.C47_draw r1 r2 h1]
  obtain ⟨m1, m2⟩ := Sampler.C47_magnitude r1 r2
  have m3 := Sampler.magnitude_le r1 r2
  have hg : ∀ k, k < 27 → gauss[k]! = gaussTable.getD k 0 := fun k hk => (gauss_get k hk).1
  rw [hg 0 (by norm_num)]
  generalize magnitude r1 r2 = m at *
  by_cases hz : r1 % 2 ^ 63 < gaussTable.getD 0 0
  · have : m = 0 := m1.2 hz
    subst this
    constructor
    · intro h
      left
      refine ⟨?_, hz⟩
      rw [← h]; split <;> simp
    · rintro (⟨rfl, _⟩ | ⟨h, _⟩)
      · split <;> simp
      · omega
  · have m2 := m2 hz
    have hm0 : m ≠ 0 := fun h => hz (m1.1 h)
    have key : ∀ j : ℕ, 1 ≤ j → j ≤ 26 → (m = j ↔ gauss[j]! ≤ r2 % 2 ^ 63 ∧ ∀ i : ℕ, 1 ≤ i → i < j → r2 % 2 ^ 63 < gauss[i]!) := by
      intro j hj hj2
      rw [hg j (by omega)]
      constructor
      · rintro rfl
        refine ⟨?_, fun i hi hij => ?_⟩
        · have := m2 m hj hj2
          omega
        · rw [hg i (by omega)]
          exact (m2 i hi (by omega)).1 hij
      · rintro ⟨a, b⟩
        have h1 := m2 j hj hj2
        have hle : m ≤ j := by
          by_contra hc
          have := h1.1 (by omega)
          omega
        by_contra hne
        have h3 := b m (by omega) (by omega)
        rw [hg m (by omega)] at h3
        have := (m2 m (by omega) (by omega)).2 h3
        omega
    constructor
    · intro h
      right
      have ha : z.natAbs = m := by rw [← h]; split <;> simp
      refine ⟨by omega, by omega, by omega, ?_, ?_⟩
      · rw [← h]
        split <;> rename_i hc
        · simp only [hc, iff_true]; omega
        · simp only [hc, iff_false]; omega
      · rw [ha]
        exact (key m (by omega) m3).1 rfl
    · rintro (⟨_, h⟩ | ⟨_, a, b, c, d⟩)
      · exact absurd h hz
      · have := (key z.natAbs a b).2 d
        split <;> rename_i hc
        · have := c.2 hc; omega
        · have : ¬ 0 < z := fun h => hc (c.1 h)
          omega

/-! ## The law of one draw -/

/-- The number of pairs of words below `N` for which the draw is `z`. -/
def drawCount (N : ℕ) (z : ℤ) : ℕ := ((Finset.range N ×ˢ Finset.range N).filter fun w => gauss1024 w.1 w.2 = z).card

/-- Entry `k` of the table, with the convention that a non-zero value certainly exceeds 0. -/
def upper (k : ℕ) : ℕ := if k = 0 then 2 ^ 63 else gauss[k]!

theorem sorted : ∀ i < 27, ∀ j < 27, i ≤ j → upper j ≤ upper i := by decide +kernel

theorem two_halves (H a b x : ℕ) (hb : b ≤ H) (hx : x < 2 * H) : (a ≤ x % H ∧ x % H < b) ↔ (a ≤ x ∧ x < b) ∨ (H + a ≤ x ∧ x < H + b) := by
  by_cases h : x < H
  · rw [Nat.mod_eq_of_lt h]; omega
  · rw [show x % H = x - H by rw [Nat.mod_eq_sub_mod (by omega), Nat.mod_eq_of_lt (by omega)]]
    omega

theorem card_halves (H a b : ℕ) (hb : b ≤ H) : ((Finset.range (2 * H)).filter fun x => a ≤ x % H ∧ x % H < b).card = 2 * (b - a) := by
  have : ((Finset.range (2 * H)).filter fun x => a ≤ x % H ∧ x % H < b) = Finset.Ico a b ∪ Finset.Ico (H + a) (H + b) := by
    ext x
    simp only [Finset.mem_filter, Finset.mem_range, Finset.mem_union, Finset.mem_Ico]
    constructor
    · rintro ⟨h1, h2⟩; exact (two_halves H a b x hb h1).1 h2
    · intro h
      have hx : x < 2 * H := by omega
      exact ⟨hx, (two_halves H a b x hb hx).2 h⟩
  rw [this, Finset.card_union_of_disjoint, Nat.card_Ico, Nat.card_Ico]
  · omega
  · rw [Finset.disjoint_left]
    intro x h1 h2
    rw [Finset.mem_Ico] at h1 h2
    omega

theorem card_low (H a : ℕ) : ((Finset.range (2 * H)).filter fun x => a ≤ x % H ∧ x < H).card = H - a := by
  have : ((Finset.range (2 * H)).filter fun x => a ≤ x % H ∧ x < H) = Finset.Ico a H := by
    ext x
    simp only [Finset.mem_filter, Finset.mem_range, Finset.mem_Ico]
    constructor
    · rintro ⟨_, h2, h3⟩
      rw [Nat.mod_eq_of_lt h3] at h2
      exact ⟨h2, h3⟩
    · rintro ⟨h2, h3⟩
      rw [Nat.mod_eq_of_lt h3]
      omega
  rw [this, Nat.card_Ico]

theorem card_high (H a : ℕ) : ((Finset.range (2 * H)).filter fun x => a ≤ x % H ∧ ¬ x < H).card = H - a := by
  have : ((Finset.range (2 * H)).filter fun x => a ≤ x % H ∧ ¬ x < H) = Finset.Ico (H + a) (2 * H) := by
    ext x
    simp only [Finset.mem_filter, Finset.mem_range, Finset.mem_Ico]
    have hm : H ≤ x → x < 2 * H → x % H = x - H := fun h1 h2 => by rw [Nat.mod_eq_sub_mod h1, Nat.mod_eq_of_lt (by omega)]
    constructor
    · rintro ⟨h1, h2, h3⟩
      rw [hm (by omega) h1] at h2
      omega
    · rintro ⟨h2, h3⟩
      rw [hm (by omega) h3]
      omega
  rw [this, Nat.card_Ico]
  omega

theorem filter_prod {α β : Type} [DecidableEq α] [DecidableEq β] (A : Finset α) (B : Finset β) (R : α × β → Prop) [DecidablePred R] (P : α → Prop) (Q : β → Prop) [DecidablePred P] [DecidablePred Q]
    (h : ∀ a ∈ A, ∀ b ∈ B, R (a, b) ↔ P a ∧ Q b) : ((A ×ˢ B).filter R).card = (A.filter P).card * (B.filter Q).card := by
  rw [← Finset.card_product]
  congr 1
  ext ⟨a, b⟩
  simp only [Finset.mem_filter, Finset.mem_product]
  constructor
  · rintro ⟨⟨ha, hb⟩, hr⟩
    have := (h a ha b hb).1 hr
    exact ⟨⟨ha, this.1⟩, hb, this.2⟩
  · rintro ⟨⟨ha, hp⟩, hb, hq⟩
    exact ⟨⟨ha, hb⟩, (h a ha b hb).2 ⟨hp, hq⟩⟩

theorem law_aux (H : ℕ) (hH : H = 2 ^ 63) (z : ℤ) : drawCount (2 * H) z = if z = 0 then 2 * gauss[0]! * (2 * H) else if z.natAbs ≤ 26 then
    (H - gauss[0]!) * (2 * (upper (z.natAbs - 1) - gauss[z.natAbs]!)) else 0 := by
  have hv : ∀ a ∈ Finset.range (2 * H), ∀ b ∈ Finset.range (2 * H), (gauss1024 a b = z ↔ _) := fun a ha b _ =>
    C93_value a b (by have := Finset.mem_range.1 ha; omega) z
  have hg0 := (gauss_get 0 (by norm_num)).2
  unfold drawCount
  simp only [← hH] at hv
  by_cases h0 : z = 0
  · rw [if_pos h0]
    rw [filter_prod _ _ _ (fun a => 0 ≤ a % H ∧ a % H < gauss[0]!) (fun _ => True), card_halves H 0 _ (by omega)]
    · rw [Finset.filter_true, Finset.card_range, Nat.sub_zero]
    · intro a ha b hb
      rw [hv a ha b hb]
      subst h0
      simp
  · rw [if_neg h0]
    by_cases h26 : z.natAbs ≤ 26
    · rw [if_pos h26]
      have hup : upper (z.natAbs - 1) ≤ H := by
        have := sorted 0 (by norm_num) (z.natAbs - 1) (by omega) (by omega)
        rw [hH]; exact this
      have hq : ∀ b, b ∈ Finset.range (2 * H) → ((gauss[z.natAbs]! ≤ b % H ∧ ∀ j : ℕ, 1 ≤ j → j < z.natAbs → b % H < gauss[j]!) ↔ (gauss[z.natAbs]! ≤ b % H ∧ b % H < upper (z.natAbs - 1))) := by
        intro b hb
        refine and_congr_right fun _ => ?_
        constructor
        · intro h
          unfold upper
          split
          · rw [← hH]; exact Nat.mod_lt _ (by omega)
          · exact h _ (by omega) (by omega)
        · intro h j hj1 hj2
          have := sorted j (by omega) (z.natAbs - 1) (by omega) (by omega)
          rw [show upper j = gauss[j]! from if_neg (by omega)] at this
          omega
      by_cases hp : 0 < z
      · rw [filter_prod _ _ _ (fun a => gauss[0]! ≤ a % H ∧ a < H) (fun b => gauss[z.natAbs]! ≤ b % H ∧ b % H < upper (z.natAbs - 1)), card_low, card_halves H _ _ hup]
        intro a ha b hb
        rw [hv a ha b hb, ← hq b hb]
        constructor
        · rintro (⟨h, _⟩ | ⟨h1, _, _, h2, h3⟩)
          · exact absurd h h0
          · exact ⟨⟨h1, h2.1 hp⟩, h3⟩
        · rintro ⟨⟨h1, h2⟩, h3⟩
          exact Or.inr ⟨h1, by omega, h26, ⟨fun _ => h2, fun _ => hp⟩, h3⟩
      · rw [filter_prod _ _ _ (fun a => gauss[0]! ≤ a % H ∧ ¬ a < H) (fun b => gauss[z.natAbs]! ≤ b % H ∧ b % H < upper (z.natAbs - 1)), card_high, card_halves H _ _ hup]
        intro a ha b hb
        rw [hv a ha b hb, ← hq b hb]
        constructor
        · rintro (⟨h, _⟩ | ⟨h1, _, _, h2, h3⟩)
          · exact absurd h h0
          · exact ⟨⟨h1, fun h => hp (h2.2 h)⟩, h3⟩
        · rintro ⟨⟨h1, h2⟩, h3⟩
          exact Or.inr ⟨h1, by omega, h26, ⟨fun h => absurd h hp, fun h => absurd h h2⟩, h3⟩
    · rw [if_neg h26, Finset.card_eq_zero, Finset.filter_eq_empty_iff]
      rintro ⟨a, b⟩ hab
      rw [Finset.mem_product] at hab
      dsimp only at hab ⊢
      rw [hv a hab.1 b hab.2]
      rintro (⟨h, _⟩ | ⟨_, _, h, _⟩)
      · exact h0 h
      · exact h26 h

/-- **C93** (law of one draw): among the `2^128` pairs of words, 0 is drawn by `2·T₀·2^64`, and each of `m` and `-m` by `(2^63 - T₀)·2·(T_{m-1} - T_m)` for `1 ≤ m ≤ 26`, with `T` the table
(`2^63` in place of `T₀` when `m = 1`); no other value is drawn. -/
theorem C93_law (z : ℤ) : drawCount (2 ^ 64) z = if z = 0 then 2 * gauss[0]! * 2 ^ 64 else if z.natAbs ≤ 26 then
    (2 ^ 63 - gauss[0]!) * (2 * (upper (z.natAbs - 1) - gauss[z.natAbs]!)) else 0 := by
  have h := law_aux (2 ^ 63) rfl z
  rw [show 2 * 2 ^ 63 = (2 : ℕ) ^ 64 by norm_num] at h
  exact h

/-! ## Distance to the Gaussian distribution -/

/-- The probability of `z` under the discrete Gaussian of deviation `1.17 √(q/2048)`: the weights of the integers are `exp (-z²/2σ²)`, and `±j` come in pairs. -/
noncomputable def gaussProb (z : ℤ) : ℝ := weight keyVar z.natAbs / (weight keyVar 0 + 2 * ∑' j, weight keyVar (1 + j))

theorem keyVar_pos : 0 < keyVar := by unfold keyVar; norm_num

theorem summK (k : ℕ) : Summable fun j => weight keyVar (k + j) := by
  simp only [Sampler.weight_eq]
  refine Sampler.summ (Real.exp_pos _) ?_ k
  rw [Real.exp_lt_one_iff]
  have := keyVar_pos
  have : 0 < 1 / (2 * keyVar) := by positivity
  linarith

theorem splitK (k : ℕ) : ∑' j, weight keyVar (k + j) = weight keyVar k + ∑' j, weight keyVar (k + 1 + j) := by
  rw [(summK k).tsum_eq_zero_add]
  simp only [Nat.add_zero]
  congr 2
  ext j
  congr 1; ring

theorem tail_nonneg (k : ℕ) : 0 ≤ ∑' j, weight keyVar (k + j) := tsum_nonneg fun _ => (Real.exp_pos _).le

theorem tail_pos (k : ℕ) : 0 < ∑' j, weight keyVar (k + j) := by
  rw [splitK]
  have h := tail_nonneg (k + 1)
  have : 0 < weight keyVar k := Real.exp_pos _
  linarith

theorem alg (a b p u : ℝ) (h1 : |a - p| ≤ 1 / 2 ^ 64) (h2 : |b - u| ≤ 1 / 2 ^ 63) (hb0 : 0 ≤ b) (hb1 : b ≤ 1) (hp0 : 0 ≤ p) (hp1 : p ≤ 1) : |a * b / 2 - p * u / 2| ≤ 1 / 2 ^ 63 := by
  have m1 : |(a - p) * b| ≤ 1 / 2 ^ 64 * 1 := by
    rw [abs_mul, abs_of_nonneg hb0]
    exact mul_le_mul h1 hb1 hb0 (by norm_num)
  have m2 : |p * (b - u)| ≤ 1 * (1 / 2 ^ 63) := by
    rw [abs_mul, abs_of_nonneg hp0]
    exact mul_le_mul hp1 h2 (abs_nonneg _) (by norm_num)
  rw [show a * b / 2 - p * u / 2 = ((a - p) * b + p * (b - u)) / 2 by ring, abs_div, show |(2 : ℝ)| = 2 by norm_num, div_le_iff₀ (by norm_num)]
  have := abs_add_le ((a - p) * b) (p * (b - u))
  have n1 : (1 : ℝ) / 2 ^ 64 ≤ 1 / 2 ^ 63 := by norm_num
  linarith

theorem scale (t : ℕ) (p : ℝ) (h : |(t : ℝ) - 2 ^ 63 * p| ≤ 1 / 2) : |(t : ℝ) / 2 ^ 63 - p| ≤ 1 / 2 ^ 64 := by
  rw [show (t : ℝ) / 2 ^ 63 - p = (t - 2 ^ 63 * p) / 2 ^ 63 by ring, abs_div, abs_of_pos (show (0 : ℝ) < 2 ^ 63 by positivity), div_le_iff₀ (by positivity)]
  refine h.trans ?_
  norm_num

/-- **C93** (distance to the Gaussian): for every integer `z`, the probability that a draw from two uniform words is `z` differs from the probability under the discrete Gaussian of deviation
`1.17 √(q/2048)` by at most `2⁻⁶³`. -/
theorem C93_gaussian (z : ℤ) : |(drawCount (2 ^ 64) z : ℝ) / 2 ^ 128 - gaussProb z| ≤ 1 / 2 ^ 63 := by
  have hg : ∀ k, k < 27 → gauss[k]! = gaussTable.getD k 0 := fun k hk => (gauss_get k hk).1
  have z0 := scale _ _ Sampler.C68_gauss_zero
  rw [← hg 0 (by norm_num)] at z0
  have hS := tail_pos 1
  have hw0 : weight keyVar 0 = 1 := by simp [weight]
  obtain ⟨S, eS⟩ : ∃ S, (∑' j, weight keyVar (1 + j)) = S := ⟨_, rfl⟩
  have tk : ∀ k, 1 ≤ k → k < 27 → |((gauss[k]! : ℕ) : ℝ) / 2 ^ 63 - (∑' j, weight keyVar (k + 1 + j)) / S| ≤ 1 / 2 ^ 64 := by
    intro k h1 h2
    rw [hg k h2, ← eS]
    exact scale _ _ (Sampler.C68_gauss k h2 h1)
  have g0lt := (gauss_get 0 (by norm_num)).2
  unfold gaussProb
  rw [C93_law, hw0]
  rw [hw0] at z0
  rw [eS] at z0 hS ⊢
  have hp0 : 0 ≤ 2 * S / (1 + 2 * S) := by positivity
  have hp1 : 2 * S / (1 + 2 * S) ≤ 1 := by rw [div_le_one (by linarith)]; linarith
  have hpc : 1 - 1 / (1 + 2 * S) = 2 * S / (1 + 2 * S) := by field_simp; ring
  by_cases h0 : z = 0
  · rw [if_pos h0, h0, Int.natAbs_zero, hw0]
    have e : ((2 * gauss[0]! * 2 ^ 64 : ℕ) : ℝ) / (2 : ℝ) ^ 128 = ((gauss[0]! : ℕ) : ℝ) / 2 ^ 63 := by push_cast; ring
    rw [e]
    exact z0.trans (by norm_num)
  · rw [if_neg h0]
    obtain ⟨m, hm⟩ : ∃ m, z.natAbs = m + 1 := ⟨z.natAbs - 1, by omega⟩
    rw [hm]
    have hw : weight keyVar (m + 1) = (∑' j, weight keyVar (m + 1 + j)) - ∑' j, weight keyVar (m + 1 + 1 + j) := by rw [splitK (m + 1)]; ring
    have hid : weight keyVar (m + 1) / (1 + 2 * S) = 2 * S / (1 + 2 * S) * ((∑' j, weight keyVar (m + 1 + j)) / S - (∑' j, weight keyVar (m + 1 + 1 + j)) / S) / 2 := by
      rw [hw]; field_simp
    rw [hid]
    by_cases h26 : m + 1 ≤ 26
    · rw [if_pos h26]
      have hle := sorted m (by omega) (m + 1) (by omega) (by omega)
      rw [show upper (m + 1) = gauss[m + 1]! from if_neg (by omega)] at hle
      have hle0 : upper m ≤ 2 ^ 63 := by
        have := sorted 0 (by norm_num) m (by omega) (by omega)
        exact this
      have e : (((2 ^ 63 - gauss[0]!) * (2 * (upper (m + 1 - 1) - gauss[m + 1]!)) : ℕ) : ℝ) / (2 : ℝ) ^ 128 = ((1 : ℝ) - ((gauss[0]! : ℕ) : ℝ) / 2 ^ 63) * ((upper m : ℝ) / 2 ^ 63 - ((gauss[m + 1]! : ℕ) : ℝ) / 2 ^ 63) / 2 := by
        rw [Nat.add_sub_cancel, Nat.cast_mul, Nat.cast_mul, Nat.cast_sub (by omega), Nat.cast_sub hle]
        push_cast
        ring
      rw [e]
      refine alg _ _ _ _ ?_ ?_ ?_ ?_ hp0 hp1
      · rw [← hpc, show (1 : ℝ) - ((gauss[0]! : ℕ) : ℝ) / (2 : ℝ) ^ 63 - ((1 : ℝ) - (1 : ℝ) / ((1 : ℝ) + (2 : ℝ) * S)) = -(((gauss[0]! : ℕ) : ℝ) / (2 : ℝ) ^ 63 - (1 : ℝ) / ((1 : ℝ) + (2 : ℝ) * S)) by ring, abs_neg]
        exact z0
      · have t1 := tk (m + 1) (by omega) (by omega)
        have t0 : |(upper m : ℝ) / 2 ^ 63 - (∑' j, weight keyVar (m + 1 + j)) / S| ≤ 1 / 2 ^ 64 := by
          by_cases hm0 : m = 0
          · subst hm0
            rw [show upper 0 = 2 ^ 63 from rfl, show 0 + 1 = 1 from rfl, eS, div_self hS.ne']
            norm_num
          · rw [show upper m = gauss[m]! from if_neg hm0]
            exact tk m (by omega) (by omega)
        rw [show (upper m : ℝ) / 2 ^ 63 - ((gauss[m + 1]! : ℕ) : ℝ) / 2 ^ 63 - ((∑' j, weight keyVar (m + 1 + j)) / S - (∑' j, weight keyVar (m + 1 + 1 + j)) / S) =
          ((upper m : ℝ) / 2 ^ 63 - (∑' j, weight keyVar (m + 1 + j)) / S) - (((gauss[m + 1]! : ℕ) : ℝ) / 2 ^ 63 - (∑' j, weight keyVar (m + 1 + 1 + j)) / S) by ring]
        refine (abs_sub _ _).trans ?_
        have : (1 : ℝ) / 2 ^ 64 + 1 / 2 ^ 64 = 1 / 2 ^ 63 := by norm_num
        linarith
      · have : ((gauss[m + 1]! : ℕ) : ℝ) ≤ upper m := by exact_mod_cast hle
        rw [sub_nonneg]
        exact div_le_div_of_nonneg_right this (by positivity)
      · have h1 : (upper m : ℝ) ≤ 2 ^ 63 := by exact_mod_cast hle0
        have h2 : (upper m : ℝ) / 2 ^ 63 ≤ 1 := by rw [div_le_one (by positivity)]; exact h1
        have h3 : (0 : ℝ) ≤ ((gauss[m + 1]! : ℕ) : ℝ) / 2 ^ 63 := by positivity
        linarith
    · rw [if_neg h26, Nat.cast_zero, zero_div, zero_sub, abs_neg]
      have hT : (∑' j, weight keyVar (m + 1 + j)) ≤ ∑' j, weight keyVar (27 + j) := by
        have hstep : ∀ i, (∑' j, weight keyVar (27 + i + j)) ≤ ∑' j, weight keyVar (27 + j) := by
          intro i
          induction i with
          | zero => exact le_rfl
          | succ i ih =>
            have := splitK (27 + i)
            have h2 : 0 < weight keyVar (27 + i) := Real.exp_pos _
            rw [← Nat.add_assoc]
            linarith
        have := hstep (m + 1 - 27)
        rwa [show 27 + (m + 1 - 27) = m + 1 by omega] at this
      have t26 := tk 26 (by norm_num) (by norm_num)
      rw [show (gauss[26]! : ℕ) = 0 by decide, Nat.cast_zero, zero_div, zero_sub, abs_neg, abs_of_nonneg (div_nonneg (tail_nonneg _) hS.le)] at t26
      have hd : 0 ≤ (∑' j, weight keyVar (m + 1 + j)) / S - (∑' j, weight keyVar (m + 1 + 1 + j)) / S := by
        rw [← sub_div, ← hw]
        exact div_nonneg (Real.exp_pos _).le hS.le
      have hd2 : (∑' j, weight keyVar (m + 1 + j)) / S - (∑' j, weight keyVar (m + 1 + 1 + j)) / S ≤ 1 / 2 ^ 64 := by
        have a1 : (∑' j, weight keyVar (m + 1 + j)) / S ≤ (∑' j, weight keyVar (26 + 1 + j)) / S := div_le_div_of_nonneg_right hT hS.le
        have a2 : 0 ≤ (∑' j, weight keyVar (m + 1 + 1 + j)) / S := div_nonneg (tail_nonneg _) hS.le
        linarith
      rw [abs_of_nonneg (by positivity)]
      have : 2 * S / (1 + 2 * S) * ((∑' j, weight keyVar (m + 1 + j)) / S - (∑' j, weight keyVar (m + 1 + 1 + j)) / S) ≤ 1 * (1 / 2 ^ 64) := mul_le_mul hp1 hd2 hd (by norm_num)
      have n : (1 : ℝ) * (1 / 2 ^ 64) / 2 ≤ 1 / 2 ^ 63 := by norm_num
      linarith

end Verif.CRef.Kg
