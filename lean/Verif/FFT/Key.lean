import Verif.FFT.Norm
import Verif.FFT.Exact
import Verif.Falcon.Lemmas

/-! Positivity over ℂ: the key's tree always exists and its leaves are positive; the sampled vector. -/

namespace Verif.FFT

open Finset Complex

set_option linter.unusedSectionVars false

/-- All of the first `n` entries are positive reals. -/
def PosVec (n : Nat) (D : List ℂ) : Prop := ∀ i < n, ∃ δ : ℝ, 0 < δ ∧ D.getD i 0 = (δ : ℂ)

/-- All leaves are pairs whose first entry is a positive real. -/
def LeafPos : Tree ℂ → Prop
  | .leaf l => l.length = 2 ∧ ∃ δ : ℝ, 0 < δ ∧ l.getD 0 0 = (δ : ℂ)
  | .node _ T0 T1 => LeafPos T0 ∧ LeafPos T1

/-- `math.sqrt` of the real part. -/
noncomputable def sqrtC (z : ℂ) : ℂ := (Real.sqrt z.re : ℂ)

theorem re_ofReal' (x : ℝ) : (re (x : ℂ) : ℂ) = x := by
  unfold re
  rw [star_def, conj_ofReal]; ring

theorem leafSq_of_pos : ∀ T : Tree ℂ, LeafPos T → LeafSq sqrtC T
  | .leaf l, ⟨h, δ, hd, hl⟩ => by
    refine ⟨h, ?_, ?_⟩
    · rw [hl, re_ofReal']
      unfold sqrtC
      rw [ofReal_re, ← ofReal_mul, Real.mul_self_sqrt hd.le]
    · rw [hl, re_ofReal']
      unfold sqrtC
      rw [ofReal_re]
      exact_mod_cast (Real.sqrt_pos.2 hd).ne'
  | .node _ T0 T1, ⟨h0, h1⟩ => ⟨leafSq_of_pos T0 h0, leafSq_of_pos T1 h1⟩

theorem shaped_normalize (sq : ℂ → ℂ) (sigma : ℂ) : ∀ (k : Nat) (T : Tree ℂ), Shaped k T → Shaped k (normalizeTree sq sigma T)
  | 0, .leaf l, h => by
    unfold normalizeTree Shaped
    intro h'
    have := congrArg List.length h'
    simp at this
    exact h this
  | 0, .node _ _ _, h => absurd h (by simp [Shaped])
  | k + 1, .leaf _, h => absurd h (by simp [Shaped])
  | k + 1, .node l T0 T1, ⟨h, h0, h1⟩ => ⟨h, shaped_normalize sq sigma k T0 h0, shaped_normalize sq sigma k T1 h1⟩

variable {R : Nat → Nat → ℂ} {I : ℂ} (hR : RootLaw R I)
include hR

theorem d11_conj {k : Nat} {G : Mat ℂ} (g : Good R k G) :
    SelfConj R (vec (2 ^ k) fun i => G.d.getD i 0 - G.c.getD i 0 / G.a.getD i 0 * star (G.c.getD i 0 / G.a.getD i 0) * G.a.getD i 0) := by
  apply selfConj_vec_of hR
  intro i j hi hj hij
  have e1 := g.sc i j (by rw [g.len.2.2.1]; exact hi) (by rw [g.len.2.2.1]; exact hj) (by rw [g.len.2.2.1]; exact hij)
  have e2 := g.sa i j (by rw [g.len.1]; exact hi) (by rw [g.len.1]; exact hj) (by rw [g.len.1]; exact hij)
  have e3 := g.sd i j (by rw [g.len.2.2.2]; exact hi) (by rw [g.len.2.2.2]; exact hj) (by rw [g.len.2.2.2]; exact hij)
  rw [e1, e2, e3]
  simp only [star_sub, star_mul', star_div₀, star_star]

theorem d11_real {k : Nat} {G : Mat ℂ} (g : Good R k G) (i : Nat) (hi : i < 2 ^ k) :
    star ((vec (2 ^ k) fun i => G.d.getD i 0 - G.c.getD i 0 / G.a.getD i 0 * star (G.c.getD i 0 / G.a.getD i 0) * G.a.getD i 0).getD i 0) =
      (vec (2 ^ k) fun i => G.d.getD i 0 - G.c.getD i 0 / G.a.getD i 0 * star (G.c.getD i 0 / G.a.getD i 0) * G.a.getD i 0).getD i 0 := by
  rw [getD_vec_lt hi, star_sub, star_mul', star_mul', star_star, g.ra i hi, g.rd i hi]; ring

/-- The children matrix of a positive diagonal entry is positive definite at every point. -/
theorem pos_split {k : Nat} (h2 : k < 10) {D d0 d1 : List ℂ} (hl : D.length = 2 ^ (k + 1)) (hD : PosVec (2 ^ (k + 1)) D) (hs : splitFft R D = .ok (d0, d1)) :
    PosVec (2 ^ k) d0 ∧ PosVec (2 ^ k) (vec (2 ^ k) fun i => d0.getD i 0 - (adjFft d1).getD i 0 / d0.getD i 0 * star ((adjFft d1).getD i 0 / d0.getD i 0) * d0.getD i 0) := by
  have e := pow_succ 2 k
  rw [splitFft_eq R (by omega) (by omega) hl] at hs
  injection hs with hs; injection hs with e0 e1
  simp only [Nat.add_sub_cancel] at e0 e1
  have l1 : d1.length = 2 ^ k := by rw [← e1]; simp
  have key : ∀ i < 2 ^ k, ∃ x y : ℝ, 0 < x ∧ 0 < y ∧ d0.getD i 0 = (((x + y) / 2 : ℝ) : ℂ) ∧
      (adjFft d1).getD i 0 * star ((adjFft d1).getD i 0) = (((x - y) / 2 * ((x - y) / 2) : ℝ) : ℂ) := by
    intro i hi
    obtain ⟨x, hx, ex⟩ := hD (2 * i) (by omega)
    obtain ⟨y, hy, ey⟩ := hD (2 * i + 1) (by omega)
    refine ⟨x, y, hx, hy, ?_, ?_⟩
    · rw [← e0, getD_vec_lt hi, ex, ey]; push_cast; ring
    · have hu := hR.unit (k + 1) (2 * i) (by omega) (by omega) (by omega)
      rw [show adjFft d1 = vec (2 ^ k) fun i => star (d1.getD i 0) by rw [← adjFft_vec, ← eq_vec' l1], getD_vec_lt hi, star_star, ← e1, getD_vec_lt hi, ex, ey]
      simp only [star_mul', star_sub, star_div₀, star_one, star_ofNat, star_star]
      have sx : star (x : ℂ) = x := conj_ofReal x
      have sy : star (y : ℂ) = y := conj_ofReal y
      rw [sx, sy]
      push_cast
      linear_combination (1 / 4 * ((x : ℂ) - y) * (x - y)) * hu
  constructor
  · intro i hi
    obtain ⟨x, y, hx, hy, h, _⟩ := key i hi
    exact ⟨(x + y) / 2, by positivity, h⟩
  · intro i hi
    obtain ⟨x, y, hx, hy, h, h'⟩ := key i hi
    refine ⟨x * y / ((x + y) / 2), by positivity, ?_⟩
    rw [getD_vec_lt hi, star_div₀, h]
    have hs : star ((((x + y) / 2 : ℝ) : ℂ)) = (((x + y) / 2 : ℝ) : ℂ) := conj_ofReal _
    have hne : (((x + y) / 2 : ℝ) : ℂ) ≠ 0 := by exact_mod_cast (by positivity : (0 : ℝ) < (x + y) / 2).ne'
    rw [hs, div_mul_div_comm, h', ofReal_div]
    field_simp
    norm_cast
    ring

/-- Building the tree of a positive definite matrix never divides by zero, and all leaves are positive. -/
theorem ffldl_total : ∀ (k : Nat), k + 1 ≤ 10 → ∀ (fuel : Nat) (G : Mat ℂ), Good R (k + 1) G → PosVec (2 ^ (k + 1)) G.a →
    PosVec (2 ^ (k + 1)) (vec (2 ^ (k + 1)) fun i => G.d.getD i 0 - G.c.getD i 0 / G.a.getD i 0 * star (G.c.getD i 0 / G.a.getD i 0) * G.a.getD i 0) → k < fuel →
    ∃ T, ffldlFftLoop R fuel G = .ok T ∧ LeafPos T ∧ Shaped (k + 1) T := by
  intro k
  induction k with
  | zero =>
    intro hk fuel G g pa pd hf
    obtain ⟨fuel, rfl⟩ : ∃ j, fuel = j + 1 := ⟨fuel - 1, by omega⟩
    have h0 : ∀ i < 2 ^ (0 + 1), G.a.getD i 0 ≠ 0 := by
      intro i hi
      obtain ⟨δ, hd, e⟩ := pa i hi
      rw [e]; exact_mod_cast hd.ne'
    unfold ffldlFftLoop
    rw [ldlFft_eq g.len h0]
    dsimp only
    rw [g.len.1, if_neg (by norm_num), if_pos (by norm_num)]
    refine ⟨_, rfl, ⟨⟨g.len.1, pa 0 (by norm_num)⟩, ⟨length_vec _ _, pd 0 (by norm_num)⟩⟩, ⟨length_vec _ _, ?_, ?_⟩⟩
    · intro h; have := g.len.1; rw [h] at this; simp at this
    · intro h; have := congrArg List.length h; simp at this
  | succ k ih =>
    intro hk fuel G g pa pd hf
    obtain ⟨fuel, rfl⟩ : ∃ j, fuel = j + 1 := ⟨fuel - 1, by omega⟩
    have h0 : ∀ i < 2 ^ (k + 1 + 1), G.a.getD i 0 ≠ 0 := by
      intro i hi
      obtain ⟨δ, hd, e⟩ := pa i hi
      rw [e]; exact_mod_cast hd.ne'
    have e := pow_succ 2 (k + 1)
    have hp : 2 ≤ 2 ^ (k + 1) := by
      calc 2 = 2 ^ 1 := rfl
        _ ≤ 2 ^ (k + 1) := Nat.pow_le_pow_right (by omega) (by omega)
    have s1 := splitFft_eq R (k := k + 1 + 1) (by omega) hk g.len.1
    have s2 := splitFft_eq R (k := k + 1 + 1) (by omega) hk (length_vec (2 ^ (k + 1 + 1)) fun i => G.d.getD i 0 - G.c.getD i 0 / G.a.getD i 0 * star (G.c.getD i 0 / G.a.getD i 0) * G.a.getD i 0)
    obtain ⟨p1, q1⟩ := pos_split hR (by omega) g.len.1 pa s1
    obtain ⟨p2, q2⟩ := pos_split hR (by omega) (length_vec _ _) pd s2
    obtain ⟨T0, r0, t0, sh0⟩ := ih (by omega) fuel _ (good_split hR (by omega) (by omega) g.len.1 g.sa g.ra s1) p1 q1 (by omega)
    obtain ⟨T1, r1, t1, sh1⟩ := ih (by omega) fuel _ (good_split hR (by omega) (by omega) (length_vec _ _) (d11_conj hR g) (d11_real hR g) s2) p2 q2 (by omega)
    unfold ffldlFftLoop
    rw [ldlFft_eq g.len h0]
    dsimp only
    rw [g.len.1, if_pos (by omega), s1]
    dsimp only
    rw [s2]
    dsimp only
    rw [r0]
    dsimp only
    rw [r1]
    exact ⟨_, rfl, ⟨t0, t1⟩, ⟨length_vec _ _, sh0, sh1⟩⟩

end Verif.FFT
