import Verif.Sampler.Tables

/-! # C69: the polynomial of `approxexp` against the exponential -/

namespace Verif.Sampler

open Finset

/-! ## The polynomial against the exponential -/

def evalL (p : List ℚ) (x : ℝ) : ℝ := List.foldr (fun (c : ℚ) (acc : ℝ) => (c : ℝ) + x * acc) (0 : ℝ) p

def mulAdd (k : ℚ) : ℚ → List ℚ → List ℚ
  | c, [] => [c]
  | c, a :: q => (c + k * a) :: mulAdd k a q

/-- Coefficients of `p(k + t)` in `t`. -/
def shiftL (k : ℚ) : List ℚ → List ℚ
  | [] => []
  | c :: p => mulAdd k c (shiftL k p)

theorem evalL_mulAdd (k c : ℚ) (q : List ℚ) (t : ℝ) : evalL (mulAdd k c q) t = c + (k + t) * evalL q t := by
  induction q generalizing c with
  | nil => simp [mulAdd, evalL]
  | cons a q ih =>
    have ih := ih a
    unfold evalL at ih ⊢
    rw [mulAdd, List.foldr_cons, ih, List.foldr_cons]
    push_cast
    ring

theorem evalL_shiftL (k : ℚ) (p : List ℚ) (t : ℝ) : evalL (shiftL k p) t = evalL p (k + t) := by
  induction p with
  | nil => rfl
  | cons c p ih =>
    rw [shiftL, evalL_mulAdd, ih]; rfl

def absL (h : ℚ) (p : List ℚ) : ℚ := List.foldr (fun (c acc : ℚ) => |c| + h * acc) (0 : ℚ) p

theorem absL_nonneg (h : ℚ) (hh : 0 ≤ h) (p : List ℚ) : 0 ≤ absL h p := by
  induction p with
  | nil => exact le_rfl
  | cons c p ih => show 0 ≤ |c| + h * absL h p; positivity

theorem abs_evalL (h : ℚ) (hh : 0 ≤ h) (p : List ℚ) (t : ℝ) (ht : |t| ≤ h) : |evalL p t| ≤ absL h p := by
  induction p with
  | nil => simp [evalL, absL]
  | cons c p ih =>
    show |(c : ℝ) + t * evalL p t| ≤ ((|c| + h * absL h p : ℚ) : ℝ)
    push_cast
    refine (abs_add_le _ _).trans ?_
    rw [abs_mul]
    have : |t| * |evalL p t| ≤ h * absL h p := mul_le_mul ht ih (abs_nonneg _) (by exact_mod_cast hh)
    linarith

/-- Polynomial of `approxexp` minus the Taylor polynomial of degree 21 of `exp(-x)`. -/
def dpoly : List ℚ := (List.range 22).map fun (i : ℕ) => (-1 : ℚ) ^ i * (((expC.reverse.getD i 0 : ℤ) : ℚ) / 2 ^ 63 - 1 / (i.factorial : ℚ))

theorem dpoly_small : ∀ k : ℕ, k < 179 → absL (1 / 512) (shiftL ((k : ℚ) / 256) dpoly) ≤ 1 / 2 ^ 51 - 1 / 2 ^ 60 := by decide +kernel

theorem dpoly_bound (x : ℝ) (h0 : -(1 / 512) ≤ x) (h1 : x ≤ 0.695) : |evalL dpoly x| ≤ 1 / 2 ^ 51 - 1 / 2 ^ 60 := by
  let k : ℤ := ⌊256 * x + 1 / 2⌋
  have hk0 : 0 ≤ k := Int.floor_nonneg.2 (by linarith)
  have hk1 : k < 179 := Int.floor_lt.2 (by push_cast; norm_num at h1 ⊢; linarith)
  have f1 := Int.floor_le (256 * x + 1 / 2)
  have f2 := Int.lt_floor_add_one (256 * x + 1 / 2)
  change (k : ℝ) ≤ _ at f1
  change _ < (k : ℝ) + 1 at f2
  obtain ⟨n, hn⟩ := Int.eq_ofNat_of_zero_le hk0
  have hnk : (k : ℝ) = (n : ℝ) := by rw [hn]; simp
  rw [hnk] at f1 f2
  have ht : |x - (n : ℝ) / 256| ≤ ((1 / 512 : ℚ) : ℝ) := by
    push_cast
    rw [abs_le]; constructor <;> linarith
  have hb := abs_evalL (1 / 512) (by norm_num) (shiftL ((n : ℚ) / 256) dpoly) _ ht
  rw [evalL_shiftL] at hb
  push_cast at hb
  rw [add_sub_cancel] at hb
  refine hb.trans ?_
  have := dpoly_small n (by omega)
  have h : ((absL (1 / 512) (shiftL ((n : ℚ) / 256) dpoly) : ℚ) : ℝ) ≤ ((1 / 2 ^ 51 - 1 / 2 ^ 60 : ℚ) : ℝ) := by exact_mod_cast this
  push_cast at h
  exact h

/-- The exact value of the polynomial loop, times `2^63`. -/
def hornerR (x : ℝ) : ℝ := List.foldl (fun (y : ℝ) (elt : ℤ) => (elt : ℝ) - x * y) ((expC.headD 0 : ℤ) : ℝ) expC.tail

theorem hornerR_eq (x : ℝ) : hornerR x / 2 ^ 63 - ∑ i ∈ range 22, (-x) ^ i / (i.factorial : ℝ) = evalL dpoly x := by
  simp only [hornerR, expC, evalL, dpoly, sum_range_succ, Nat.factorial, List.range, List.range.loop, List.map, List.foldr, List.foldl, List.tail, List.headD, List.reverse,
    List.reverseAux, List.getD, List.getElem?_cons_zero, List.getElem?_cons_succ, List.getElem?_nil, Option.getD, sum_range_zero]
  push_cast
  ring

theorem poly_exp (x : ℝ) (h0 : -(1 / 512) ≤ x) (h1 : x ≤ 0.695) : |hornerR x / 2 ^ 63 - Real.exp (-x)| ≤ 1 / 2 ^ 51 := by
  have hx : |(-x)| ≤ 1 := by rw [abs_neg, abs_le]; constructor <;> [linarith; (norm_num at h1; linarith)]
  have h := Real.exp_bound hx (n := 22) (by norm_num)
  have hd := dpoly_bound x h0 h1
  rw [← hornerR_eq] at hd
  have hr : |(-x)| ^ 22 * (((22 : ℕ).succ : ℝ) / (((22 : ℕ).factorial : ℝ) * (22 : ℕ))) ≤ 1 / 2 ^ 60 := by
    have : |(-x)| ^ 22 ≤ 1 := pow_le_one₀ (abs_nonneg _) hx
    have h2 : (((22 : ℕ).succ : ℝ) / (((22 : ℕ).factorial : ℝ) * (22 : ℕ))) ≤ 1 / 2 ^ 60 := by norm_num [Nat.factorial]
    have h3 : 0 ≤ (((22 : ℕ).succ : ℝ) / (((22 : ℕ).factorial : ℝ) * (22 : ℕ))) := by positivity
    calc _ ≤ 1 * (((22 : ℕ).succ : ℝ) / (((22 : ℕ).factorial : ℝ) * (22 : ℕ))) := mul_le_mul_of_nonneg_right this h3
      _ ≤ _ := by rw [one_mul]; exact h2
  rw [abs_le] at hd h ⊢
  constructor <;> linarith [hd.1, hd.2, h.1, h.2]

end Verif.Sampler
