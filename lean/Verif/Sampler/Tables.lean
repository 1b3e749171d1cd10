import Verif.Sampler.Props
import Mathlib.Analysis.Complex.Exponential
import Mathlib.Analysis.SpecificLimits.Basic
import Mathlib.Topology.Algebra.InfiniteSum.Order
import Mathlib.Topology.Algebra.InfiniteSum.NatInt

/-! # C68: the two probability tables against the Gaussian distribution -/

namespace Verif.Sampler

open Finset

/-- Enclosure of `2^160 · ρ^(j²)` for `A ≤ 2^160 ρ ≤ B`. -/
def lo (A j : ℕ) : ℕ := A ^ (j ^ 2) * 2 ^ 160 / 2 ^ (160 * j ^ 2)
def hi (B j : ℕ) : ℕ := B ^ (j ^ 2) * 2 ^ 160 / 2 ^ (160 * j ^ 2) + 1

theorem lo_le {ρ : ℝ} {A : ℕ} (h : (A : ℝ) ≤ 2 ^ 160 * ρ) (j : ℕ) : (lo A j : ℝ) ≤ 2 ^ 160 * ρ ^ (j ^ 2) := by
  have h1 : (A : ℝ) ^ (j ^ 2) ≤ (2 ^ 160 * ρ) ^ (j ^ 2) := pow_le_pow_left₀ (Nat.cast_nonneg _) h _
  unfold lo
  refine (Nat.cast_div_le).trans ?_
  push_cast
  rw [div_le_iff₀ (by positivity), pow_mul]
  rw [mul_pow] at h1
  nlinarith [h1]

theorem le_hi {ρ : ℝ} {B : ℕ} (h0 : 0 ≤ ρ) (h : 2 ^ 160 * ρ ≤ (B : ℝ)) (j : ℕ) : 2 ^ 160 * ρ ^ (j ^ 2) ≤ (hi B j : ℝ) := by
  have h1 : (2 ^ 160 * ρ) ^ (j ^ 2) ≤ (B : ℝ) ^ (j ^ 2) := pow_le_pow_left₀ (by positivity) h _
  unfold hi
  have h2 : ((B ^ (j ^ 2) * 2 ^ 160 : ℕ) : ℝ) / ((2 ^ (160 * j ^ 2) : ℕ) : ℝ) ≤ ((B ^ (j ^ 2) * 2 ^ 160 / 2 ^ (160 * j ^ 2) : ℕ) : ℝ) + 1 := by
    have hp : 0 < 2 ^ (160 * j ^ 2) := by positivity
    rw [div_le_iff₀ (by exact_mod_cast hp)]
    have := Nat.lt_div_mul_add (a := B ^ (j ^ 2) * 2 ^ 160) hp
    have h3 : B ^ (j ^ 2) * 2 ^ 160 ≤ (B ^ (j ^ 2) * 2 ^ 160 / 2 ^ (160 * j ^ 2) + 1) * 2 ^ (160 * j ^ 2) := by
      rw [Nat.add_mul, Nat.one_mul]; omega
    exact_mod_cast h3
  push_cast at h2 ⊢
  refine le_trans ?_ h2
  rw [le_div_iff₀ (by positivity), pow_mul]
  rw [mul_pow] at h1
  nlinarith [h1]

section
variable {ρ : ℝ} (h0 : 0 < ρ) (h1 : ρ < 1)
include h0 h1

theorem pow_sq_le (N j : ℕ) : ρ ^ ((N + j) ^ 2) ≤ ρ ^ (N ^ 2) * (ρ ^ N) ^ j := by
  rw [← pow_mul, ← pow_add]
  apply pow_le_pow_of_le_one h0.le h1.le
  nlinarith

theorem summ_tail (N : ℕ) (hN : 0 < N) : Summable fun j : ℕ => ρ ^ ((N + j) ^ 2) := by
  refine Summable.of_nonneg_of_le (fun j => by positivity) (fun j => pow_sq_le h0 h1 N j) ?_
  exact (summable_geometric_of_lt_one (by positivity) (pow_lt_one₀ h0.le h1 hN.ne')).mul_left _

theorem summ (k : ℕ) : Summable fun j : ℕ => ρ ^ ((k + j) ^ 2) := by
  rcases k with _ | k
  · have := summ_tail h0 h1 1 one_pos
    rw [← summable_nat_add_iff 1]
    refine this.congr fun j => ?_
    congr 2; ring
  · exact summ_tail h0 h1 _ (by omega)

theorem tail_le (N : ℕ) (hN : 0 < N) (hh : ρ ^ N ≤ 1 / 2) : ∑' j, ρ ^ ((N + j) ^ 2) ≤ 2 * ρ ^ (N ^ 2) := by
  have hs := summ_tail h0 h1 N hN
  have hg := (summable_geometric_of_lt_one (r := ρ ^ N) (by positivity) (pow_lt_one₀ h0.le h1 hN.ne')).mul_left (ρ ^ (N ^ 2))
  refine (hs.tsum_le_tsum (fun j => pow_sq_le h0 h1 N j) hg).trans ?_
  rw [tsum_mul_left, tsum_geometric_of_lt_one (by positivity) (pow_lt_one₀ h0.le h1 hN.ne')]
  have : (1 - ρ ^ N)⁻¹ ≤ 2 := by
    rw [inv_le_comm₀ (by linarith) (by norm_num)]
    linarith
  have hp : 0 < ρ ^ (N ^ 2) := by positivity
  nlinarith

/-- Enclosure of the tail sums: `m` terms from `k` on and the rest. -/
theorem tail_encl (A B k m : ℕ) (hA : (A : ℝ) ≤ 2 ^ 160 * ρ) (hB : 2 ^ 160 * ρ ≤ B) (hm : 0 < k + m) (hh : ρ ^ (k + m) ≤ 1 / 2) :
    (((List.range m).map fun i => lo A (k + i)).sum : ℕ) ≤ 2 ^ 160 * ∑' j, ρ ^ ((k + j) ^ 2) ∧
    2 ^ 160 * ∑' j, ρ ^ ((k + j) ^ 2) ≤ ((((List.range m).map fun i => hi B (k + i)).sum + 2 * hi B (k + m) : ℕ) : ℝ) := by
  have hs := summ h0 h1 k
  rw [← hs.sum_add_tsum_nat_add m]
  have hsum : ∀ (f : ℕ → ℕ), (((List.range m).map f).sum : ℕ) = ∑ i ∈ range m, f i := by
    intro f
    clear hm hh hs
    induction m with
    | zero => rfl
    | succ m ih => rw [List.range_succ, List.map_append, List.sum_append, sum_range_succ, ih]; simp
  have ht : ∑' j, ρ ^ ((k + (j + m)) ^ 2) ≤ 2 * ρ ^ ((k + m) ^ 2) := by
    have := tail_le h0 h1 (k + m) hm hh
    convert this using 4
    ring
  have ht0 : 0 ≤ ∑' j, ρ ^ ((k + (j + m)) ^ 2) := tsum_nonneg fun j => by positivity
  constructor
  · rw [hsum, Nat.cast_sum]
    have : ∑ i ∈ range m, ((lo A (k + i) : ℕ) : ℝ) ≤ ∑ i ∈ range m, 2 ^ 160 * ρ ^ ((k + i) ^ 2) := sum_le_sum fun i _ => lo_le hA _
    rw [← mul_sum] at this
    nlinarith
  · rw [hsum, Nat.cast_add, Nat.cast_mul, Nat.cast_sum, Nat.cast_ofNat]
    have : ∑ i ∈ range m, 2 ^ 160 * ρ ^ ((k + i) ^ 2) ≤ ∑ i ∈ range m, ((hi B (k + i) : ℕ) : ℝ) := sum_le_sum fun i _ => le_hi h0.le hB _
    rw [← mul_sum] at this
    have := le_hi h0.le hB (k + m)
    nlinarith

end

/-- Rational Taylor polynomial of the exponential. -/
def taylor (n : ℕ) (x : ℚ) : ℚ := ((List.range n).map fun i => x ^ i / (i.factorial : ℚ)).sum

theorem taylor_eq (n : ℕ) (x : ℚ) : ((taylor n x : ℚ) : ℝ) = ∑ i ∈ range n, (x : ℝ) ^ i / (i.factorial : ℝ) := by
  unfold taylor
  induction n with
  | zero => simp
  | succ n ih =>
    rw [List.range_succ, List.map_append, List.sum_append, sum_range_succ, ← ih]
    push_cast
    simp

theorem exp_encl (x : ℚ) (n : ℕ) (hn : 0 < n) (hx : |x| ≤ 1) (a b : ℚ)
    (ha : a ≤ taylor n x - |x| ^ n * ((n.succ : ℚ) / (n.factorial * n))) (hb : taylor n x + |x| ^ n * ((n.succ : ℚ) / (n.factorial * n)) ≤ b) :
    (a : ℝ) ≤ Real.exp x ∧ Real.exp x ≤ b := by
  have h := Real.exp_bound (x := (x : ℝ)) (by exact_mod_cast hx) hn
  rw [← taylor_eq, abs_le] at h
  have ha' : ((a : ℚ) : ℝ) ≤ ((taylor n x - |x| ^ n * ((n.succ : ℚ) / (n.factorial * n)) : ℚ) : ℝ) := by exact_mod_cast ha
  have hb' : ((taylor n x + |x| ^ n * ((n.succ : ℚ) / (n.factorial * n)) : ℚ) : ℝ) ≤ (b : ℝ) := by exact_mod_cast hb
  push_cast at ha' hb' h
  constructor <;> linarith [h.1, h.2]

/-! ## The base sampler's table -/

/-- `2^160 · exp(-1/(2 · 1.8205²))`, rounded down. -/
def A1 : ℕ := 1256838419759725029594011687382773615908820514763
/-- `2^160 · exp(-1/(2 · σ²))`, `σ² = 1.17² · 12289 / 2048`, rounded down. -/
def A2 : ℕ := 1375191852304228754182148455740290595252555974811

theorem weight_eq (v : ℝ) (j : ℕ) : weight v j = Real.exp (-(1 / (2 * v))) ^ (j ^ 2) := by
  unfold weight
  rw [← Real.exp_nat_mul]
  congr 1
  push_cast
  ring

theorem rho_encl (x : ℚ) (A : ℕ) (n : ℕ) (hn : 0 < n) (hx : |x| ≤ 1)
    (ha : (A : ℚ) / 2 ^ 160 ≤ taylor n x - |x| ^ n * ((n.succ : ℚ) / (n.factorial * n)))
    (hb : taylor n x + |x| ^ n * ((n.succ : ℚ) / (n.factorial * n)) ≤ ((A + 1 : ℕ) : ℚ) / 2 ^ 160) :
    (A : ℝ) ≤ 2 ^ 160 * Real.exp x ∧ 2 ^ 160 * Real.exp x ≤ ((A + 1 : ℕ) : ℝ) := by
  obtain ⟨h1, h2⟩ := exp_encl x n hn hx _ _ ha hb
  push_cast at h1 h2 ⊢
  rw [div_le_iff₀ (by positivity)] at h1
  rw [le_div_iff₀ (by positivity)] at h2
  constructor <;> linarith

/-- Lower and upper sums with `48 - k` explicit terms. -/
def sumLo (A k : ℕ) : ℕ := ((List.range (48 - k)).map fun i => lo A (k + i)).sum
def sumHi (A k : ℕ) : ℕ := ((List.range (48 - k)).map fun i => hi (A + 1) (k + i)).sum + 2 * hi (A + 1) 48

theorem half_pow (w b : ℕ) (r : ℝ) (hw : 0 < w) (hr : 0 < r) (h : (w : ℝ) * r ≤ b) (hh : b ^ 48 * 2 ≤ w ^ 48) : r ^ 48 ≤ 1 / 2 := by
  have h1 : ((w : ℝ) * r) ^ 48 ≤ (b : ℝ) ^ 48 := pow_le_pow_left₀ (by positivity) h _
  have h2 : (b : ℝ) ^ 48 * 2 ≤ (w : ℝ) ^ 48 := by exact_mod_cast hh
  rw [mul_pow] at h1
  have hp : (0 : ℝ) < (w : ℝ) ^ 48 := by positivity
  generalize (w : ℝ) ^ 48 = a at *
  generalize r ^ 48 = c at *
  generalize (b : ℝ) ^ 48 = d at *
  nlinarith

theorem encl48 (x : ℚ) (hx0 : x < 0) (A : ℕ) (h : (A : ℝ) ≤ 2 ^ 160 * Real.exp x ∧ 2 ^ 160 * Real.exp x ≤ ((A + 1 : ℕ) : ℝ)) (hh : (A + 1) ^ 48 * 2 ≤ (2 ^ 160) ^ 48)
    (k : ℕ) (hk : k ≤ 48) : (sumLo A k : ℝ) ≤ 2 ^ 160 * ∑' j, Real.exp x ^ ((k + j) ^ 2) ∧ 2 ^ 160 * ∑' j, Real.exp x ^ ((k + j) ^ 2) ≤ (sumHi A k : ℝ) := by
  have h48 : Real.exp x ^ 48 ≤ 1 / 2 := half_pow (2 ^ 160) _ _ (by positivity) (Real.exp_pos _) (by exact_mod_cast h.2) hh
  have e : k + (48 - k) = 48 := by omega
  have := tail_encl (ρ := Real.exp x) (Real.exp_pos _) (by rw [Real.exp_lt_one_iff]; exact_mod_cast hx0) A (A + 1) k (48 - k) h.1 h.2 (by omega) (by rw [e]; exact h48)
  rw [e] at this
  exact this

theorem encl1 : (A1 : ℝ) ≤ 2 ^ 160 * Real.exp ((-(1 / (2 * (18205 / 10 ^ 4) ^ 2)) : ℚ)) ∧ 2 ^ 160 * Real.exp ((-(1 / (2 * (18205 / 10 ^ 4) ^ 2)) : ℚ)) ≤ ((A1 + 1 : ℕ) : ℝ) :=
  rho_encl _ A1 40 (by norm_num) (by decide +kernel) (by decide +kernel) (by decide +kernel)

theorem encl2 : (A2 : ℝ) ≤ 2 ^ 160 * Real.exp ((-(1 / (2 * ((117 / 100) ^ 2 * 12289 / 2048))) : ℚ)) ∧ 2 ^ 160 * Real.exp ((-(1 / (2 * ((117 / 100) ^ 2 * 12289 / 2048))) : ℚ)) ≤ ((A2 + 1 : ℕ) : ℝ) :=
  rho_encl _ A2 40 (by norm_num) (by decide +kernel) (by decide +kernel) (by decide +kernel)

theorem close (T : ℕ) (S Z : ℝ) (SL SH ZL ZH : ℕ) (e : ℕ) (sc : ℕ) (hS : (SL : ℝ) ≤ 2 ^ 160 * S ∧ 2 ^ 160 * S ≤ SH) (hZ : (ZL : ℝ) ≤ 2 ^ 160 * Z ∧ 2 ^ 160 * Z ≤ ZH) (hp : 0 < ZL)
    (c1 : 2 * (sc * SH) ≤ (2 * T + e) * ZL) (c2 : 2 * (T * ZH) ≤ 2 * (sc * SL) + e * ZL) : |(T : ℝ) - sc * (S / Z)| ≤ e / 2 := by
  have c1' : 2 * ((sc : ℝ) * SH) ≤ (2 * T + e) * ZL := by exact_mod_cast c1
  have c2' : 2 * ((T : ℝ) * ZH) ≤ 2 * (sc * SL) + e * ZL := by exact_mod_cast c2
  have hp' : (0 : ℝ) < ZL := by exact_mod_cast hp
  have hZ0 : 0 < Z := by nlinarith [hZ.1]
  have h1 : (sc : ℝ) * (2 ^ 160 * S) ≤ sc * SH := mul_le_mul_of_nonneg_left hS.2 (Nat.cast_nonneg _)
  have h2 : (sc : ℝ) * SL ≤ sc * (2 ^ 160 * S) := mul_le_mul_of_nonneg_left hS.1 (Nat.cast_nonneg _)
  have h3 : (T : ℝ) * (2 ^ 160 * Z) ≤ T * ZH := mul_le_mul_of_nonneg_left hZ.2 (Nat.cast_nonneg _)
  have h4 : ((2 * T + e : ℝ)) * ZL ≤ (2 * T + e) * (2 ^ 160 * Z) := mul_le_mul_of_nonneg_left hZ.1 (by positivity)
  have h5 : (e : ℝ) * ZL ≤ e * (2 ^ 160 * Z) := mul_le_mul_of_nonneg_left hZ.1 (by positivity)
  rw [abs_le]
  constructor
  · have : (sc : ℝ) * S / Z ≤ T + e / 2 := by
      rw [div_le_iff₀ hZ0]; nlinarith
    rw [mul_div_assoc] at this; linarith
  · have : (T : ℝ) - e / 2 ≤ sc * S / Z := by
      rw [le_div_iff₀ hZ0]; nlinarith
    rw [mul_div_assoc] at this; linarith

theorem var1 : Real.exp (-(1 / (2 * (1.8205 : ℝ) ^ 2))) = Real.exp ((-(1 / (2 * (18205 / 10 ^ 4) ^ 2)) : ℚ)) := by
  congr 1; push_cast; norm_num

theorem hh1 : (A1 + 1) ^ 48 * 2 ≤ (2 ^ 160) ^ 48 := by decide +kernel
theorem hh2 : (A2 + 1) ^ 48 * 2 ≤ (2 ^ 160) ^ 48 := by decide +kernel

theorem check1 : ∀ k < 18, 2 * (2 ^ 72 * sumHi A1 (k + 1)) ≤ (2 * rcdt.getD k 0 + 18) * sumLo A1 0 ∧
    2 * (rcdt.getD k 0 * sumHi A1 0) ≤ 2 * (2 ^ 72 * sumLo A1 (k + 1)) + 18 * sumLo A1 0 := by decide +kernel

/-- **C68**: entry `k` of the table of the base sampler is `2^72` times the probability that the half-Gaussian of parameter `MAX_SIGMA = 1.8205` exceeds `k`, up to 9 units
(`9 · 2⁻⁷²`). -/
theorem C68_rcdt (k : ℕ) (hk : k < 18) : |((rcdt[k]'(by rw [rcdt_length]; exact hk) : ℕ) : ℝ) - 2 ^ 72 * tailProb (1.8205 ^ 2) k| ≤ 9 := by
  have hneg : (-(1 / (2 * (18205 / 10 ^ 4) ^ 2)) : ℚ) < 0 := by decide +kernel
  have e1 := encl48 _ hneg A1 encl1 hh1 (k + 1) (by omega)
  have e0 := encl48 _ hneg A1 encl1 hh1 0 (by omega)
  obtain ⟨c1, c2⟩ := check1 k hk
  have hg : rcdt.getD k 0 = rcdt[k]'(by rw [rcdt_length]; exact hk) := by
    rw [List.getD_eq_getElem?_getD, List.getElem?_eq_getElem]; rfl
  have := close (rcdt.getD k 0) _ _ _ _ _ _ 18 (2 ^ 72) e1 e0 (by decide +kernel) c1 c2
  unfold tailProb
  simp only [weight_eq, var1]
  rw [hg] at this
  simp only [Nat.zero_add] at this
  push_cast at this ⊢
  norm_num at this ⊢
  exact this

theorem var2 : Real.exp (-(1 / (2 * ((1.17 : ℝ) ^ 2 * 12289 / 2048)))) = Real.exp ((-(1 / (2 * ((117 / 100) ^ 2 * 12289 / 2048))) : ℚ)) := by
  congr 1; push_cast; norm_num

/-- The variance of the key generation Gaussian (`n = 1024`): `σ = 1.17 · √(q / 2048)`. -/
noncomputable def keyVar : ℝ := 1.17 ^ 2 * 12289 / 2048

theorem check2 : ∀ k < 27, 1 ≤ k → 2 * (2 ^ 63 * sumHi A2 (k + 1)) ≤ (2 * gaussTable.getD k 0 + 1) * sumLo A2 1 ∧
    2 * (gaussTable.getD k 0 * sumHi A2 1) ≤ 2 * (2 ^ 63 * sumLo A2 (k + 1)) + 1 * sumLo A2 1 := by decide +kernel

/-- **C68**: for `1 ≤ k ≤ 26`, entry `k` of the key generation table is `2^63` times the probability that a non-zero Gaussian value of deviation `1.17 √(q/2048)` exceeds `k` in absolute value,
rounded to the nearest integer. -/
theorem C68_gauss (k : ℕ) (hk : k < 27) (h1 : 1 ≤ k) :
    |((gaussTable.getD k 0 : ℕ) : ℝ) - 2 ^ 63 * ((∑' j, weight keyVar (k + 1 + j)) / ∑' j, weight keyVar (1 + j))| ≤ 1 / 2 := by
  have hneg : (-(1 / (2 * ((117 / 100) ^ 2 * 12289 / 2048))) : ℚ) < 0 := by decide +kernel
  have e1 := encl48 _ hneg A2 encl2 hh2 (k + 1) (by omega)
  have e0 := encl48 _ hneg A2 encl2 hh2 1 (by omega)
  obtain ⟨c1, c2⟩ := check2 k hk h1
  have := close (gaussTable.getD k 0) _ _ _ _ _ _ 1 (2 ^ 63) e1 e0 (by decide +kernel) c1 c2
  simp only [weight_eq, keyVar, var2]
  push_cast at this ⊢
  norm_num at this ⊢
  exact this

theorem check0 : 2 * (2 ^ 63 * 2 ^ 160) ≤ (2 * gaussTable.getD 0 0 + 1) * (2 ^ 160 + 2 * sumLo A2 1) ∧
    2 * (gaussTable.getD 0 0 * (2 ^ 160 + 2 * sumHi A2 1)) ≤ 2 * (2 ^ 63 * 2 ^ 160) + 1 * (2 ^ 160 + 2 * sumLo A2 1) := by decide +kernel

/-- **C68**: entry 0 is `2^63` times the probability of zero, rounded to the nearest integer (the other values come in pairs `±j`). -/
theorem C68_gauss_zero :
    |((gaussTable.getD 0 0 : ℕ) : ℝ) - 2 ^ 63 * (weight keyVar 0 / (weight keyVar 0 + 2 * ∑' j, weight keyVar (1 + j)))| ≤ 1 / 2 := by
  have hneg : (-(1 / (2 * ((117 / 100) ^ 2 * 12289 / 2048))) : ℚ) < 0 := by decide +kernel
  have e0 := encl48 _ hneg A2 encl2 hh2 1 (by omega)
  obtain ⟨c1, c2⟩ := check0
  simp only [weight_eq, keyVar, var2]
  have hw : Real.exp ((-(1 / (2 * ((117 / 100) ^ 2 * 12289 / 2048))) : ℚ)) ^ (0 ^ 2) = 1 := by simp
  rw [hw]
  generalize (∑' j, Real.exp ((-(1 / (2 * ((117 / 100) ^ 2 * 12289 / 2048))) : ℚ)) ^ ((1 + j) ^ 2)) = S1 at *
  have := close (gaussTable.getD 0 0) 1 (1 + 2 * S1) (2 ^ 160) (2 ^ 160) (2 ^ 160 + 2 * sumLo A2 1) (2 ^ 160 + 2 * sumHi A2 1) 1 (2 ^ 63)
    ⟨by push_cast; linarith, by push_cast; linarith⟩ ⟨by push_cast; linarith [e0.1], by push_cast; linarith [e0.2]⟩ (by decide +kernel) c1 c2
  push_cast at this ⊢
  norm_num at this ⊢
  exact this

end Verif.Sampler
