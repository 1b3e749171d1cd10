import Verif.Sampler.Exp

/-! # C69: the law of one trial of `samplerz` -/

namespace Verif.Sampler

open Finset

variable {S : Type}

/-! ## Specification -/

/-- One trial of the rejection loop on the random numbers it consumes: `u` (72 bits), `b` (one bit) and `U` (64 bits).  `some z`: accepted. -/
def trial (r sigma sigmin : ℚ) (u b U : ℕ) : Option ℤ :=
  let z0 := baseOf u
  let z : ℤ := b + (2 * b - 1) * z0
  match berThreshold (exponent z z0 r (1 / (2 * sigma * sigma))) (sigmin / sigma) with
  | .error _ => none
  | .ok t => if (U : ℤ) < t then some z else none

/-- Number of triples `(u, b, U)` with `u < N`, `b < 2`, `U < M` on which the trial accepts the value `z`. -/
def trialCount (r sigma sigmin : ℚ) (z : ℤ) (N M : ℕ) : ℕ :=
  #{t ∈ range N ×ˢ range 2 ×ˢ range M | trial r sigma sigmin t.1 t.2.1 t.2.2 = some z}

/-- Probability that a trial on uniform random numbers accepts the value `z`. -/
noncomputable def trialProb (r sigma sigmin : ℚ) (z : ℤ) : ℝ :=
  (trialCount r sigma sigmin z (2 ^ 72) (2 ^ 64) : ℝ) / (2 ^ 72 * 2 * 2 ^ 64)

/-- The Gaussian weight `exp(-(z - r)² / (2 sigma²))`. -/
noncomputable def gauss (r sigma : ℝ) (z : ℤ) : ℝ := Real.exp (-((z : ℝ) - r) ^ 2 / (2 * sigma ^ 2))

/-- Number of words below `N` on which the base sampler returns `z0`. -/
def baseCount (N z0 : ℕ) : ℕ := #{u ∈ range N | baseOf u = z0}

/-! ## The base sampler -/

/-- `2^72` is above the table. -/
def Top (N : ℕ) : Prop := ∀ k, k < 18 → rcdt.getD k 0 ≤ N

theorem top72 : Top (2 ^ 72) := by unfold Top; decide +kernel

theorem base_ge (N : ℕ) (hN : Top N) (k : ℕ) (hk : k < 18) : #{u ∈ range N | k < baseOf u} = rcdt.getD k 0 := by
  have hg : rcdt.getD k 0 = rcdt[k]'(by rw [rcdt_length]; exact hk) := by
    rw [List.getD_eq_getElem?_getD, List.getElem?_eq_getElem (by rw [rcdt_length]; exact hk)]; rfl
  have hb := hN k hk
  rw [hg] at hb ⊢
  have : (range N).filter (fun u => k < baseOf u) = range (rcdt[k]'(by rw [rcdt_length]; exact hk)) := by
    ext u
    rw [mem_filter, mem_range, mem_range, C46_base_law u k hk]
    constructor
    · exact fun h => h.2
    · exact fun h => ⟨lt_of_lt_of_le h hb, h⟩
  rw [this, card_range]

theorem card_split (N : ℕ) (f : ℕ → ℕ) (k : ℕ) : #{u ∈ range N | f u = k} + #{u ∈ range N | k < f u} = #{u ∈ range N | k ≤ f u} := by
  rw [← card_union_of_disjoint]
  · congr 1
    ext u
    simp only [mem_union, mem_filter]
    constructor
    · rintro (⟨h1, h2⟩ | ⟨h1, h2⟩) <;> exact ⟨h1, by omega⟩
    · rintro ⟨h1, h2⟩
      rcases Nat.eq_or_lt_of_le h2 with h3 | h3
      · exact .inl ⟨h1, h3.symm⟩
      · exact .inr ⟨h1, h3⟩
  · rw [disjoint_filter]
    intro u _ h1 h2; omega

theorem card_none (N : ℕ) (f : ℕ → ℕ) (k : ℕ) (h : ∀ u, f u ≤ k) : #{u ∈ range N | k < f u} = 0 := by
  rw [card_eq_zero, filter_eq_empty_iff]
  intro u _
  have := h u
  omega

theorem card_all (N : ℕ) (f : ℕ → ℕ) : #{u ∈ range N | 0 ≤ f u} = N := by
  rw [filter_true_of_mem (fun _ _ => Nat.zero_le _), card_range]

theorem baseCount_zero (N : ℕ) (hN : Top N) : baseCount N 0 + rcdt.getD 0 0 = N := by
  unfold baseCount
  have h := card_split N baseOf 0
  rw [base_ge N hN 0 (by omega), card_all] at h
  exact h

theorem baseCount_succ (N : ℕ) (hN : Top N) (k : ℕ) (h : k + 1 < 18) : baseCount N (k + 1) + rcdt.getD (k + 1) 0 = rcdt.getD k 0 := by
  unfold baseCount
  have h1 := card_split N baseOf (k + 1)
  rw [base_ge N hN (k + 1) h] at h1
  rw [h1, ← base_ge N hN k (by omega)]
  rfl

theorem baseCount_last (N : ℕ) (hN : Top N) : baseCount N 18 = rcdt.getD 17 0 := by
  unfold baseCount
  have h1 := card_split N baseOf 18
  rw [card_none _ _ _ C46_base_range, Nat.add_zero] at h1
  rw [h1, ← base_ge N hN 17 (by omega)]
  rfl

theorem rho1 : 0 < Real.exp (-(1 / (2 * (1.8205 : ℝ) ^ 2))) ∧ Real.exp (-(1 / (2 * (1.8205 : ℝ) ^ 2))) < 1 :=
  ⟨Real.exp_pos _, by rw [Real.exp_lt_one_iff]; norm_num⟩

theorem summW (k : ℕ) : Summable fun j => weight (1.8205 ^ 2) (k + j) := by
  simp only [weight_eq]
  exact summ rho1.1 rho1.2 k

theorem Z_pos : 1 ≤ ∑' j, weight (1.8205 ^ 2) j := by
  have h := summW 0
  simp only [Nat.zero_add] at h
  have := h.le_tsum 0 fun j _ => (Real.exp_pos _).le
  simpa [weight] using this

theorem tail_split (k : ℕ) : ∑' j, weight (1.8205 ^ 2) (k + j) = weight (1.8205 ^ 2) k + ∑' j, weight (1.8205 ^ 2) (k + 1 + j) := by
  rw [(summW k).tsum_eq_zero_add]
  simp only [Nat.add_zero]
  congr 2
  ext j
  congr 1; ring

theorem alg0 (B c p T : ℝ) (h : |c - 2 ^ 72 * T| ≤ 9) (h0 : 1 = p + T) (hc : B + c = 2 ^ 72) : |B - 2 ^ 72 * p| ≤ 18 := by
  rw [abs_le] at *
  constructor <;> linarith [h.1, h.2]

theorem alg1 (B c d p T T' : ℝ) (h : |d - 2 ^ 72 * T| ≤ 9) (h' : |c - 2 ^ 72 * T'| ≤ 9) (h0 : T = p + T') (hc : B + c = d) : |B - 2 ^ 72 * p| ≤ 18 := by
  rw [abs_le] at *
  constructor <;> linarith [h.1, h.2, h'.1, h'.2]

theorem alg2 (B p T T' : ℝ) (h : |1 - 2 ^ 72 * T| ≤ 9) (h0 : T = p + T') (hc : B = 1) (hp : 0 ≤ p) (hT : 0 ≤ T') : |B - 2 ^ 72 * p| ≤ 18 := by
  rw [abs_le] at *
  constructor <;> linarith [h.1, h.2]

theorem alg3 (B p T a : ℝ) (hb : |B - 2 ^ 72 * p| ≤ 18) (ht0 : 0 ≤ T) (ht1 : T ≤ 1) (hp0 : 0 ≤ p) (hp1 : p ≤ 1) (t3 : |T - a| ≤ 1 / 2 ^ 44) :
    |B / 2 ^ 72 * T / 2 - p * a / 2| ≤ 1 / 2 ^ 44 := by
  have hb : |B / 2 ^ 72 - p| ≤ 18 / 2 ^ 72 := by
    rw [show B / 2 ^ 72 - p = (B - 2 ^ 72 * p) / 2 ^ 72 by ring, abs_div, abs_of_pos (show (0 : ℝ) < 2 ^ 72 by positivity)]
    exact div_le_div_of_nonneg_right hb (by positivity)
  generalize B / 2 ^ 72 = B at *
  have m1 : |(B - p) * T| ≤ 18 / 2 ^ 72 * 1 := by
    rw [abs_mul, abs_of_nonneg ht0]
    exact mul_le_mul hb ht1 ht0 (by norm_num)
  have m2 : |p * (T - a)| ≤ 1 * (1 / 2 ^ 44) := by
    rw [abs_mul, abs_of_nonneg hp0]
    exact mul_le_mul hp1 t3 (abs_nonneg _) (by norm_num)
  have e3 : B * T / 2 - p * a / 2 = ((B - p) * T + p * (T - a)) / 2 := by ring
  rw [e3, abs_div, show |(2 : ℝ)| = 2 by norm_num]
  have := abs_add_le ((B - p) * T) (p * (T - a))
  rw [div_le_iff₀ (by norm_num)]
  have n1 : (18 : ℝ) / 2 ^ 72 * 1 ≤ 1 / 2 ^ 44 := by norm_num
  linarith

theorem base_prob (N : ℕ) (hN : Top N) (h72 : (N : ℝ) = 2 ^ 72) (z0 : ℕ) (h : z0 ≤ 18) :
    |(baseCount N z0 : ℝ) - 2 ^ 72 * (weight (1.8205 ^ 2) z0 / ∑' j, weight (1.8205 ^ 2) j)| ≤ 18 := by
  have hZ := Z_pos
  have hR : ∀ k, k < 18 → |((rcdt.getD k 0 : ℕ) : ℝ) - 2 ^ 72 * tailProb (1.8205 ^ 2) k| ≤ 9 := by
    intro k hk
    have := C68_rcdt k hk
    rwa [List.getD_eq_getElem?_getD, List.getElem?_eq_getElem (by rw [rcdt_length]; exact hk)]
  have ht : ∀ k, tailProb (1.8205 ^ 2) k = weight (1.8205 ^ 2) (k + 1) / (∑' j, weight (1.8205 ^ 2) j) + tailProb (1.8205 ^ 2) (k + 1) := by
    intro k
    unfold tailProb
    rw [tail_split (k + 1), add_div]
  have h0 : (1 : ℝ) = weight (1.8205 ^ 2) 0 / (∑' j, weight (1.8205 ^ 2) j) + tailProb (1.8205 ^ 2) 0 := by
    have := tail_split 0
    simp only [Nat.zero_add] at this
    unfold tailProb
    rw [← add_div]
    simp only [Nat.zero_add]
    rw [← this, div_self (by linarith)]
  have hnn : ∀ k, 0 ≤ tailProb (1.8205 ^ 2) k := fun k => div_nonneg (tsum_nonneg fun j => (Real.exp_pos _).le) (by linarith)
  rcases z0 with _ | k
  · have hc' : (baseCount N 0 : ℝ) + (rcdt.getD 0 0 : ℕ) = 2 ^ 72 := by
      have := congrArg (Nat.cast : ℕ → ℝ) (baseCount_zero N hN)
      rw [Nat.cast_add, h72] at this
      exact this
    exact alg0 _ _ _ _ (hR 0 (by omega)) h0 hc'
  · have hk := hR k (by omega)
    have hw : 0 ≤ weight (1.8205 ^ 2) (k + 1) / ∑' j, weight (1.8205 ^ 2) j := div_nonneg (Real.exp_pos _).le (by linarith)
    rcases Nat.lt_or_ge (k + 1) 18 with h18 | h18
    · have hc' : (baseCount N (k + 1) : ℝ) + (rcdt.getD (k + 1) 0 : ℕ) = (rcdt.getD k 0 : ℕ) := by
        have := congrArg (Nat.cast : ℕ → ℝ) (baseCount_succ N hN k h18)
        rw [Nat.cast_add] at this
        exact this
      exact alg1 _ _ _ _ _ _ hk (hR (k + 1) h18) (ht k) hc'
    · have hk17 : k = 17 := by omega
      subst hk17
      have hc' : (baseCount N 18 : ℝ) = 1 := by rw [baseCount_last N hN]; norm_num [rcdt]
      have hv : ((rcdt.getD 17 0 : ℕ) : ℝ) = 1 := by norm_num [rcdt]
      rw [hv] at hk
      exact alg2 _ _ _ _ hk (ht 17) hc' hw (hnn 18)

/-- **C68**: the base sampler returns `z0` on `2^72 · ρ(z0) / Σρ` of its `2^72` inputs, up to 18. -/
theorem C68_base_prob (z0 : ℕ) (h : z0 ≤ 18) :
    |(baseCount (2 ^ 72) z0 : ℝ) - 2 ^ 72 * (weight (1.8205 ^ 2) z0 / ∑' j, weight (1.8205 ^ 2) j)| ≤ 18 :=
  base_prob (2 ^ 72) top72 (by rw [Nat.cast_pow, Nat.cast_ofNat]) z0 h

attribute [irreducible] baseCount trialCount

/-! ## The trial -/

/-- The base value and the bit of `z`. -/
def baseOfZ (z : ℤ) : ℕ := if z ≤ 0 then (-z).toNat else (z - 1).toNat
def bitOfZ (z : ℤ) : ℕ := if z ≤ 0 then 0 else 1

theorem z_split (z : ℤ) (b z0 : ℕ) (hb : b < 2) : ((b : ℤ) + (2 * b - 1) * z0 = z) ↔ (b = bitOfZ z ∧ z0 = baseOfZ z) := by
  unfold bitOfZ baseOfZ
  interval_cases b <;> split <;> omega

theorem gauss_split (z : ℤ) (r sigma : ℚ) (hs : 1 ≤ sigma) :
    weight (1.8205 ^ 2) (baseOfZ z) * Real.exp (-((exponent z (baseOfZ z) r (1 / (2 * sigma * sigma)) : ℚ) : ℝ)) = gauss r sigma z := by
  unfold weight gauss
  rw [← Real.exp_add]
  congr 1
  unfold exponent inv2Sigma2 maxSigma
  have hs' : (sigma : ℝ) ≠ 0 := by
    have : sigma ≠ 0 := by linarith
    exact_mod_cast this
  push_cast
  field_simp
  ring

theorem trialCount_eq (r sigma sigmin : ℚ) (z : ℤ) (N M t : ℕ) (t2 : t < M) (hb2 : bitOfZ z < 2) (hzz : ((bitOfZ z : ℕ) : ℤ) + (2 * (bitOfZ z : ℕ) - 1) * (baseOfZ z : ℕ) = z)
    (t1 : berThreshold (exponent z (baseOfZ z) r (1 / (2 * sigma * sigma))) (sigmin / sigma) = .ok (t : ℤ)) :
    trialCount r sigma sigmin z N M = baseCount N (baseOfZ z) * t := by
  have : ({t ∈ range N ×ˢ range 2 ×ˢ range M | trial r sigma sigmin t.1 t.2.1 t.2.2 = some z} : Finset _) =
      ({u ∈ range N | baseOf u = baseOfZ z} : Finset ℕ) ×ˢ ({bitOfZ z} : Finset ℕ) ×ˢ range t := by
    ext ⟨u, b, U⟩
    simp only [mem_filter, mem_product, mem_range, mem_singleton]
    constructor
    · rintro ⟨⟨hu, hb, hU⟩, h⟩
      unfold trial at h
      simp only at h
      split at h
      · cases h
      · next v hv =>
        split at h
        · next hlt =>
          obtain ⟨e1, e2⟩ := (z_split z b (baseOf u) hb).1 (Option.some.inj h)
          rw [Option.some.inj h, e2, t1] at hv
          cases hv
          exact ⟨⟨hu, e2⟩, e1, by exact_mod_cast hlt⟩
        · cases h
    · rintro ⟨⟨hu, e2⟩, e1, hlt⟩
      refine ⟨⟨hu, by omega, by omega⟩, ?_⟩
      unfold trial
      simp only
      rw [e1, e2, hzz, t1]
      simp only
      rw [if_pos (by exact_mod_cast hlt)]
  unfold trialCount baseCount
  rw [this, card_product, card_product, card_singleton, card_range, one_mul]

theorem trial_law (N M : ℕ) (hN : Top N) (h72 : (N : ℝ) = 2 ^ 72) (h64 : M = 2 ^ 64) (r sigma sigmin : ℚ) (h0 : 0 ≤ r) (h1 : r < 1) (hs : 1 ≤ sigmin) (hss : sigmin ≤ sigma) (hm : sigma ≤ maxSigma) (z : ℤ) (hz : -18 ≤ z) (hz' : z ≤ 19) :
    |(trialCount r sigma sigmin z N M : ℝ) / (2 ^ 72 * 2 * 2 ^ 64) - (sigmin / sigma : ℝ) / (2 * ∑' j, weight (1.8205 ^ 2) j) * gauss r sigma z| ≤ 1 / 2 ^ 44 := by
  have hz18 : baseOfZ z ≤ 18 := by unfold baseOfZ; split <;> omega
  have hb2 : bitOfZ z < 2 := by unfold bitOfZ; split <;> omega
  have hzz := (z_split z (bitOfZ z) (baseOfZ z) hb2).2 ⟨rfl, rfl⟩
  obtain ⟨x0, x1, c0, c1⟩ := C69_in_range (baseOfZ z) (bitOfZ z) hz18 hb2 r sigma sigmin h0 h1 hs hss hm
  rw [hzz] at x0 x1
  obtain ⟨t, t1, t2, t3⟩ := C69_threshold _ _ x0 x1 c0 c1
  have hcard := trialCount_eq r sigma sigmin z N M t (by rw [h64]; exact t2) hb2 hzz t1
  have hg := gauss_split z r sigma (hs.trans hss)
  have hbp := base_prob N hN h72 (baseOfZ z) hz18
  have hZ := Z_pos
  rw [hcard, ← hg, Nat.cast_mul]
  generalize baseCount N (baseOfZ z) = B at *
  clear hcard
  have hp0 : 0 ≤ weight (1.8205 ^ 2) (baseOfZ z) / (∑' j, weight (1.8205 ^ 2) j) := div_nonneg (Real.exp_pos _).le (by linarith)
  have hp1 : weight (1.8205 ^ 2) (baseOfZ z) / (∑' j, weight (1.8205 ^ 2) j) ≤ 1 := by
    rw [div_le_one (by linarith)]
    have := (by simpa only [Nat.zero_add] using summW 0 : Summable fun j => weight (1.8205 ^ 2) j)
    exact this.le_tsum _ fun j _ => (Real.exp_pos _).le
  have ht1 : (t : ℝ) / 2 ^ 64 ≤ 1 := by
    rw [div_le_one (by positivity)]
    exact_mod_cast t2.le
  have ht0 : 0 ≤ (t : ℝ) / 2 ^ 64 := by positivity
  push_cast at t3 ⊢
  have e1 : (B : ℝ) * t / (2 ^ 72 * 2 * 2 ^ 64) = (B : ℝ) / 2 ^ 72 * (t / 2 ^ 64) / 2 := by ring
  generalize (∑' j, weight (1.8205 ^ 2) j) = Z at *
  have e2 : ∀ w E k : ℝ, k / (2 * Z) * (w * E) = w / Z * (k * E) / 2 := by intro w E k; ring
  rw [e1, e2]
  generalize weight (1.8205 ^ 2) (baseOfZ z) / Z = p at *
  generalize (sigmin : ℝ) / (sigma : ℝ) * Real.exp (-((exponent z (baseOfZ z) r (1 / (2 * sigma * sigma)) : ℚ) : ℝ)) = a at *
  generalize (t : ℝ) / 2 ^ 64 = T at *
  exact alg3 _ _ _ _ hbp ht0 ht1 hp0 hp1 t3

/-- **C69**: every trial accepts the value `z` with probability `ccs / (2 Σρ) · exp(-(z - r)² / (2 sigma²))` up to `2^-44`: a constant times the Gaussian weight of `z` about the
centre, the constant being the same for all `z`. -/
theorem C69_trial_law (r sigma sigmin : ℚ) (h0 : 0 ≤ r) (h1 : r < 1) (hs : 1 ≤ sigmin) (hss : sigmin ≤ sigma) (hm : sigma ≤ maxSigma) (z : ℤ) (hz : -18 ≤ z) (hz' : z ≤ 19) :
    |trialProb r sigma sigmin z - (sigmin / sigma : ℝ) / (2 * ∑' j, weight (1.8205 ^ 2) j) * gauss r sigma z| ≤ 1 / 2 ^ 44 := by
  unfold trialProb
  exact trial_law (2 ^ 72) (2 ^ 64) top72 (by rw [Nat.cast_pow, Nat.cast_ofNat]) rfl r sigma sigmin h0 h1 hs hss hm z hz hz'

theorem loop_aux (R : Rng S) (hR : Honest R) (c : ℤ) (r sigma sigmin : ℚ) (h0 : 0 ≤ r) (h1 : r < 1) (hs : 1 ≤ sigmin) (hss : sigmin ≤ sigma) (hm : sigma ≤ maxSigma) (fuel : ℕ) (st : S)
    (u b : ℕ) (hb : b < 2) (z : ℤ) (hz : z = b + (2 * b - 1) * baseOf u) :
    ∃ st' : S, ((match berexp R (exponent z (baseOf u) r (1 / (2 * sigma * sigma))) (sigmin / sigma) st with
      | .error e => some (.error e)
      | .ok (true, st) => some (.ok (z + c, st))
      | .ok (false, st) => sampleLoop R c r (1 / (2 * sigma * sigma)) (sigmin / sigma) fuel st) : Option (Except Err (ℤ × S))) =
      match trial r sigma sigmin u b (be (draws R 8 st)) with
      | some z => some (.ok (z + c, st'))
      | none => sampleLoop R c r (1 / (2 * sigma * sigma)) (sigmin / sigma) fuel st' := by
  obtain ⟨x0, x1, c0, c1⟩ := C69_in_range (baseOf u) b (C46_base_range _) hb r sigma sigmin h0 h1 hs hss hm
  obtain ⟨t, t1, t2, t3⟩ := C69_threshold _ _ x0 x1 c0 c1
  rw [← hz] at t1
  obtain ⟨st', hst⟩ := C46_berexp_law R hR _ _ t t1 t2 st
  clear t2 t3 x0 x1
  refine ⟨st', ?_⟩
  have htr : trial r sigma sigmin u b (be (draws R 8 st)) = if ((be (draws R 8 st) : ℕ) : ℤ) < (t : ℤ) then some z else none := by
    unfold trial
    simp only
    rw [← hz, t1]
  rw [htr, hst]
  generalize be (draws R 8 st) = U
  by_cases hlt : U < t
  · rw [if_pos (by exact_mod_cast hlt), decide_eq_true hlt]
  · rw [if_neg (by exact_mod_cast hlt), decide_eq_false hlt]

/-- The hypotheses hold at the parameters of `n = 512`: `sigmin = 1.2778336969128337` and, say, `sigma = 1.7`. -/
example : |trialProb (1 / 3) (17 / 10) (12778336969128337 / 10 ^ 16) 4 -
    (((12778336969128337 / 10 ^ 16 : ℚ) : ℝ) / ((17 / 10 : ℚ) : ℝ)) / (2 * ∑' j, weight (1.8205 ^ 2) j) * gauss ((1 / 3 : ℚ) : ℝ) ((17 / 10 : ℚ) : ℝ) 4| ≤ 1 / 2 ^ 44 :=
  C69_trial_law _ _ _ (by norm_num) (by norm_num) (by norm_num) (by norm_num) (by norm_num [maxSigma]) 4 (by norm_num) (by norm_num)

/-- **C69**: the loop of `samplerz` is a sequence of trials on successive parts of the random stream: it returns the first accepted value, shifted by `⌊mu⌋`. -/
theorem C69_loop (R : Rng S) (hR : Honest R) (c : ℤ) (r sigma sigmin : ℚ) (h0 : 0 ≤ r) (h1 : r < 1) (hs : 1 ≤ sigmin) (hss : sigmin ≤ sigma) (hm : sigma ≤ maxSigma) (fuel : ℕ) (st : S) :
    ∃ st', sampleLoop R c r (1 / (2 * sigma * sigma)) (sigmin / sigma) (fuel + 1) st =
      match trial r sigma sigmin (le (R 9 st).1) (le (R 1 (R 9 st).2).1 % 2) (be (draws R 8 (R 1 (R 9 st).2).2)) with
      | some z => some (.ok (z + c, st'))
      | none => sampleLoop R c r (1 / (2 * sigma * sigma)) (sigmin / sigma) fuel st' := by
  have hb : le (R 1 (R 9 st).2).1 % 2 < 2 := Nat.mod_lt _ (by norm_num)
  have e1 : basesampler R st = (baseOf (le (R 9 st).1), (R 9 st).2) := rfl
  obtain ⟨st', h⟩ := loop_aux R hR c r sigma sigmin h0 h1 hs hss hm fuel (R 1 (R 9 st).2).2 (le (R 9 st).1) (le (R 1 (R 9 st).2).1 % 2) hb _ rfl
  refine ⟨st', ?_⟩
  rw [← h, sampleLoop, e1]
  rfl

end Verif.Sampler
