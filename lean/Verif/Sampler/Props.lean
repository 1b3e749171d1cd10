import Verif.Sampler.Spec
import Mathlib.Tactic.Linarith
import Mathlib.Tactic.NormNum
import Mathlib.Tactic.Ring
import Mathlib.Tactic.Positivity
import Mathlib.Tactic.IntervalCases
import Mathlib.Tactic.FieldSimp

/-! # C46, C47: ranges and exact laws of the samplers -/

namespace Verif.Sampler

variable {S : Type}

/-! ## The base sampler -/

theorem foldl_count (u : ℕ) (l : List ℕ) (a : ℕ) :
    l.foldl (fun z0 elt => z0 + if u < elt then 1 else 0) a = a + l.countP (fun e => decide (u < e)) := by
  induction l generalizing a with
  | nil => rfl
  | cons x l ih =>
    rw [List.foldl_cons, ih, List.countP_cons]
    by_cases h : u < x <;> simp [h]; omega

theorem countP_sorted (u : ℕ) (l : List ℕ) (hs : l.Pairwise (· > ·)) (k : ℕ) (hk : k < l.length) :
    k < l.countP (fun e => decide (u < e)) ↔ u < l[k] := by
  induction l generalizing k with
  | nil => simp at hk
  | cons a l ih =>
    rw [List.pairwise_cons] at hs
    rw [List.countP_cons]
    by_cases h : u < a
    · rcases k with _ | k
      · simp [h]
      · have := ih hs.2 k (by simpa using hk)
        simp [h, this]
    · have h0 : l.countP (fun e => decide (u < e)) = 0 := by
        rw [List.countP_eq_zero]
        intro e he
        have := hs.1 e he
        simp; omega
      rw [h0]
      have : ((a :: l)[k]) ≤ a := by
        rcases k with _ | k
        · simp
        · have := hs.1 (l[k]'(by simpa using hk)) (List.getElem_mem _)
          simp; omega
      simp [h]; omega

theorem rcdt_sorted : rcdt.Pairwise (· > ·) := by decide +kernel
theorem rcdt_length : rcdt.length = 18 := by decide

/-- **C46**: the base sampler returns a value in `0..18`. -/
theorem C46_base_range (u : ℕ) : baseOf u ≤ 18 := by
  unfold baseOf
  rw [foldl_count]
  have := List.countP_le_length (p := fun e => decide (u < e)) (l := rcdt)
  rw [rcdt_length] at this; omega

/-- **C46**: the base sampler returns more than `k` exactly for the random inputs below the `k`-th table entry. -/
theorem C46_base_law (u k : ℕ) (hk : k < 18) : k < baseOf u ↔ u < rcdt[k]'(by rw [rcdt_length]; exact hk) := by
  unfold baseOf
  rw [foldl_count, Nat.zero_add]
  exact countP_sorted u rcdt rcdt_sorted k _

/-- **C46**: the base sampler is monotone (decreasing) in its random input. -/
theorem C46_base_monotone (u v : ℕ) (h : u ≤ v) : baseOf v ≤ baseOf u := by
  by_contra hc
  have hlt : baseOf u < baseOf v := by omega
  have hv := C46_base_range v
  have hk : baseOf u < 18 := by omega
  have h1 := (C46_base_law v (baseOf u) hk).1 hlt
  have h2 := (C46_base_law u (baseOf u) hk).2 (by omega)
  omega

/-- **C46**: of the `2^72` inputs, the ones giving a value above `k` number exactly `RCDT[k]`. -/
theorem C46_base_count (k : ℕ) (hk : k < 18) :
    ((Finset.range (2 ^ 72)).filter fun u => k < baseOf u).card = rcdt[k]'(by rw [rcdt_length]; exact hk) := by
  have hb : ∀ e ∈ rcdt, e ≤ 2 ^ 72 := by decide +kernel
  have : (Finset.range (2 ^ 72)).filter (fun u => k < baseOf u) = Finset.range (rcdt[k]'(by rw [rcdt_length]; exact hk)) := by
    ext u
    rw [Finset.mem_filter, Finset.mem_range, Finset.mem_range, C46_base_law u k hk]
    have := hb (rcdt[k]'(by rw [rcdt_length]; exact hk)) (List.getElem_mem _)
    constructor
    · exact fun h => h.2
    · exact fun h => ⟨lt_of_lt_of_le h this, h⟩
  rw [this, Finset.card_range]

/-! ## The Bernoulli trial -/

theorem le_one (b : Bytes) (h1 : b.length = 1) (h2 : IsBytes b) : le b < 256 := by
  match b, h1 with
  | [x], _ => have := h2 x (by simp); simpa [le] using this

theorem draws_length (R : Rng S) (n : ℕ) (s : S) : (draws R n s).length = n := by
  induction n generalizing s with
  | zero => rfl
  | succ n ih => rw [draws, List.length_cons, ih]

theorem be_lt (l : List ℕ) (h : ∀ d ∈ l, d < 256) : be l < 256 ^ l.length := by
  induction l with
  | nil => simp [be]
  | cons d l ih =>
    have h1 := ih fun x hx => h x (List.mem_cons_of_mem _ hx)
    have h2 := h d (by simp)
    rw [be, List.length_cons, pow_succ]
    calc d * 256 ^ l.length + be l < d * 256 ^ l.length + 256 ^ l.length := by omega
      _ = (d + 1) * 256 ^ l.length := by ring
      _ ≤ 256 * 256 ^ l.length := Nat.mul_le_mul_right _ (by omega)
      _ = _ := by ring

theorem draws_lt (R : Rng S) (hR : Honest R) (n : ℕ) (s : S) : ∀ d ∈ draws R n s, d < 256 := by
  induction n generalizing s with
  | zero => simp [draws]
  | succ n ih =>
    intro d hd
    rw [draws, List.mem_cons] at hd
    rcases hd with rfl | hd
    · exact le_one _ (hR 1 s).1 (hR 1 s).2
    · exact ih _ d hd

/-- The shifts `8(m-1), ..., 8, 0`. -/
def shifts : ℕ → List ℕ
  | 0 => []
  | m + 1 => 8 * m :: shifts m

theorem berLoop_law (R : Rng S) (hR : Honest R) (z : ℕ) (m : ℕ) (s : S) :
    (berLoop R z (shifts m) 0 s).1 < 0 ↔ be (draws R m s) < z % 256 ^ m := by
  induction m generalizing s with
  | zero => simp [shifts, berLoop, draws, be, Nat.mod_one]
  | succ m ih =>
    have hd : ((z : ℤ) >>> (8 * m)) % 256 = ((z / 256 ^ m % 256 : ℕ) : ℤ) := by
      rw [Int.shiftRight_eq_div_pow, pow_mul]; norm_num
    have hb := le_one _ (hR 1 s).1 (hR 1 s).2
    rw [shifts, draws, be, draws_length]
    simp only [berLoop]
    rw [hd]
    generalize hp : le (R 1 s).1 = p at *
    have hlt : be (draws R m (R 1 s).2) < 256 ^ m := by
      have := be_lt _ (draws_lt R hR m (R 1 s).2); rwa [draws_length] at this
    have hz : z % 256 ^ (m + 1) = z / 256 ^ m % 256 * 256 ^ m + z % 256 ^ m := by
      rw [pow_succ, Nat.mod_mul]; ring
    have hm : z % 256 ^ m < 256 ^ m := Nat.mod_lt _ (by positivity)
    rw [hz]
    generalize z / 256 ^ m % 256 = t at *
    by_cases h : p = t
    · subst h
      rw [if_neg (by simp), sub_self, ih]
      omega
    · rw [if_pos (by omega)]
      simp only
      constructor
      · intro h2
        have h3 : p + 1 ≤ t := by omega
        have := Nat.mul_le_mul_right (256 ^ m) h3
        rw [Nat.add_mul, Nat.one_mul] at this
        omega
      · intro h2
        by_contra h3
        have h3 : t + 1 ≤ p := by omega
        have := Nat.mul_le_mul_right (256 ^ m) h3
        rw [Nat.add_mul, Nat.one_mul] at this
        omega

/-- **C46**: with a threshold `z < 2^64`, `berexp` answers true exactly when the next eight bytes of the source, read as a big-endian number, are below `z`:
for uniform bytes the probability of `true` is exactly `z / 2^64`.  (It stops reading at the first byte that decides.) -/
theorem C46_berexp_law (R : Rng S) (hR : Honest R) (x ccs : ℚ) (z : ℕ) (hz : berThreshold x ccs = .ok z) (hz64 : z < 2 ^ 64) (s : S) :
    ∃ s', berexp R x ccs s = .ok (decide (be (draws R 8 s) < z), s') := by
  unfold berexp
  rw [hz]
  have := berLoop_law R hR z 8 s
  rw [Nat.mod_eq_of_lt (by calc z < 2 ^ 64 := hz64
                            _ = 256 ^ 8 := by norm_num)] at this
  refine ⟨(berLoop R z (shifts 8) 0 s).2, ?_⟩
  show Except.ok (decide ((berLoop R z (shifts 8) 0 s).1 < 0), (berLoop R z (shifts 8) 0 s).2) = _
  rw [decide_eq_decide.2 this]

/-! ## The exponent -/

theorem maxSigma_pos : (0 : ℚ) < maxSigma := by norm_num [maxSigma]

theorem centred (z0 : ℕ) (b : ℕ) (hb : b < 2) (r : ℚ) (h0 : 0 ≤ r) (h1 : r < 1) :
    (z0 : ℚ) ≤ |(((b : ℤ) + (2 * b - 1) * z0 : ℤ) : ℚ) - r| ∧ |(((b : ℤ) + (2 * b - 1) * z0 : ℤ) : ℚ) - r| ≤ z0 + 1 := by
  have hz : (0 : ℚ) ≤ z0 := Nat.cast_nonneg _
  interval_cases b
  · push_cast
    rw [abs_of_nonpos (by linarith)]
    constructor <;> linarith
  · push_cast
    rw [abs_of_nonneg (by linarith)]
    constructor <;> linarith

/-- **C46**: for `sigma ≤ MAX_SIGMA` every exponent handed to `berexp` is non-negative, as `berexp` requires; for `sigma ≥ 1` it is at most 181. -/
theorem C46_exponent (z0 b : ℕ) (hz : z0 ≤ 18) (hb : b < 2) (r sigma : ℚ) (h0 : 0 ≤ r) (h1 : r < 1) (hs : 1 ≤ sigma) (hm : sigma ≤ maxSigma) :
    0 ≤ exponent (b + (2 * b - 1) * z0) z0 r (1 / (2 * sigma * sigma)) ∧ exponent (b + (2 * b - 1) * z0) z0 r (1 / (2 * sigma * sigma)) ≤ 181 := by
  obtain ⟨c1, c2⟩ := centred z0 b hb r h0 h1
  have hz' : (z0 : ℚ) ≤ 18 := by exact_mod_cast hz
  have hz0 : (0 : ℚ) ≤ z0 := Nat.cast_nonneg _
  have hsp : 0 < sigma := by linarith
  unfold exponent inv2Sigma2
  rw [← sq_abs]
  generalize |(((b : ℤ) + (2 * b - 1) * z0 : ℤ) : ℚ) - r| = a at *
  have e1 : (1 : ℚ) / (2 * maxSigma ^ 2) ≤ 1 / (2 * sigma * sigma) := by
    apply one_div_le_one_div_of_le (by positivity)
    nlinarith
  have e2 : (1 : ℚ) / (2 * sigma * sigma) ≤ 1 / 2 := by
    apply one_div_le_one_div_of_le (by norm_num)
    nlinarith
  have e3 : (0 : ℚ) < 1 / (2 * maxSigma ^ 2) := by have := maxSigma_pos; positivity
  have a1 : (z0 : ℚ) ^ 2 ≤ a ^ 2 := by nlinarith
  have a2 : a ^ 2 ≤ 19 ^ 2 := by
    have : 0 ≤ a := by linarith
    nlinarith
  constructor
  · have : (z0 : ℚ) ^ 2 * (1 / (2 * maxSigma ^ 2)) ≤ a ^ 2 * (1 / (2 * sigma * sigma)) := by
      apply mul_le_mul a1 e1 e3.le (by positivity)
    linarith
  · have : a ^ 2 * (1 / (2 * sigma * sigma)) ≤ 19 ^ 2 * (1 / 2) := by
      apply mul_le_mul a2 e2 (by positivity) (by positivity)
    have : 0 ≤ (z0 : ℚ) ^ 2 * (1 / (2 * maxSigma ^ 2)) := by positivity
    linarith

/-! ## The sampler -/

theorem sampleLoop_range (R : Rng S) (c : ℤ) (r dss ccs : ℚ) (fuel : ℕ) (st st' : S) (z : ℤ)
    (h : sampleLoop R c r dss ccs fuel st = some (.ok (z, st'))) : c - 18 ≤ z ∧ z ≤ c + 19 := by
  induction fuel generalizing st with
  | zero => cases h
  | succ fuel ih =>
    simp only [sampleLoop] at h
    have hz : ((basesampler R st).1 : ℤ) ≤ 18 := by exact_mod_cast C46_base_range _
    have hz0 : (0 : ℤ) ≤ (basesampler R st).1 := Int.natCast_nonneg _
    have hb : le (R 1 (basesampler R st).2).1 % 2 < 2 := Nat.mod_lt _ (by norm_num)
    generalize (basesampler R st).1 = z0 at *
    generalize le (R 1 (basesampler R st).2).1 % 2 = b at *
    split at h
    · cases h
    · cases h
      interval_cases b <;> push_cast <;> constructor <;> linarith
    · exact ih _ h

/-- **C46**: whatever the centre, the deviation, the source of randomness and the number of rejections, `samplerz` returns only values in
`⌊mu⌋ - 18 .. ⌊mu⌋ + 19`. -/
theorem C46_range (R : Rng S) (mu sigma sigmin : ℚ) (fuel : ℕ) (st st' : S) (z : ℤ)
    (h : samplerz R mu sigma sigmin fuel st = some (.ok (z, st'))) : ⌊mu⌋ - 18 ≤ z ∧ z ≤ ⌊mu⌋ + 19 := by
  unfold samplerz at h
  split at h
  · cases h
  · exact sampleLoop_range R _ _ _ _ _ _ _ _ h

theorem pyInt_nonneg {x : ℚ} (h : 0 ≤ x) : pyInt x = ⌊x⌋ := by
  unfold pyInt
  have hn : 0 ≤ x.num := Rat.num_nonneg.2 h
  rw [Int.tdiv_eq_ediv_of_nonneg hn]
  exact Rat.floor_def'.symm

theorem berThreshold_ok (x ccs : ℚ) (hx : 0 ≤ x) : ∃ z, berThreshold x ccs = .ok z := by
  unfold berThreshold
  have h : 0 ≤ pyInt (x * iln2) := by
    rw [pyInt_nonneg (by have : (0 : ℚ) < iln2 := by norm_num [iln2]
                         positivity)]
    apply Int.floor_nonneg.2
    have : (0 : ℚ) < iln2 := by norm_num [iln2]
    positivity
  simp only
  rw [if_neg (by omega)]
  exact ⟨_, rfl⟩

/-- **C46**: for `1 ≤ sigma ≤ MAX_SIGMA` the sampler never raises. -/
theorem C46_no_error (R : Rng S) (mu sigma sigmin : ℚ) (hs : 1 ≤ sigma) (hm : sigma ≤ maxSigma) (fuel : ℕ) (st : S) (e : Err) :
    samplerz R mu sigma sigmin fuel st ≠ some (.error e) := by
  unfold samplerz
  rw [if_neg (by linarith)]
  have h0 : 0 ≤ mu - ⌊mu⌋ := by have := Int.floor_le mu; linarith
  have h1 : mu - ⌊mu⌋ < 1 := by have := Int.lt_floor_add_one mu; linarith
  generalize mu - (⌊mu⌋ : ℚ) = r at *
  induction fuel generalizing st with
  | zero => simp [sampleLoop]
  | succ fuel ih =>
    simp only [sampleLoop]
    have hb : le (R 1 (basesampler R st).2).1 % 2 < 2 := Nat.mod_lt _ (by norm_num)
    have hz : (basesampler R st).1 ≤ 18 := C46_base_range _
    obtain ⟨z, hz⟩ := berThreshold_ok _ (sigmin / sigma) (C46_exponent _ _ hz hb r sigma h0 h1 hs hm).1
    unfold berexp
    rw [hz]
    simp only
    cases hd : decide ((berLoop R z [56, 48, 40, 32, 24, 16, 8, 0] 0 (R 1 (basesampler R st).2).2).1 < 0)
    · exact ih _
    · simp

/-! ## mkgauss -/

theorem gaussScan_done (r : ℕ) (ks : List ℕ) (v : ℕ) : gaussScan r ks 1 v = v := by
  induction ks generalizing v with
  | nil => rfl
  | cons k ks ih =>
    unfold gaussScan
    simp only
    split <;> simp [ih]

theorem gaussScan_find (r : ℕ) (ks : List ℕ) : gaussScan r ks 0 0 = (ks.find? fun k => decide (gaussTable.getD k 0 ≤ r)).getD 0 := by
  induction ks with
  | nil => rfl
  | cons k ks ih =>
    unfold gaussScan
    by_cases h : r < gaussTable.getD k 0
    · rw [List.find?_cons_of_neg (by simpa using h)]
      simp only [if_pos h]
      rw [show (0 ||| (1 ^^^ 1) : ℕ) = 0 by decide, show (0 ||| if (1 ^^^ 1) &&& (0 ^^^ 1) = 1 then k else 0) = 0 by simp]
      exact ih
    · rw [List.find?_cons_of_pos (by simpa using h)]
      simp only [if_neg h]
      rw [show (0 ||| (0 ^^^ 1) : ℕ) = 1 by decide, gaussScan_done]
      simp

/-- The magnitude of one draw: zero when the first word (63 bits) is below the first table entry, otherwise the least `k ≥ 1` whose table entry
is at most the second word. -/
def magnitude (r1 r2 : ℕ) : ℕ :=
  if r1 % 2 ^ 63 < gaussTable.getD 0 0 then 0
  else (((List.range 26).map (· + 1)).find? fun k => decide (gaussTable.getD k 0 ≤ r2 % 2 ^ 63)).getD 0

theorem magnitude_le (r1 r2 : ℕ) : magnitude r1 r2 ≤ 26 := by
  unfold magnitude
  split
  · omega
  · cases h : ((List.range 26).map (· + 1)).find? (fun k => decide (gaussTable.getD k 0 ≤ r2 % 2 ^ 63)) with
    | none => simp
    | some k =>
      have := List.mem_of_find?_eq_some h
      simp at this ⊢
      omega

theorem gauss_sorted : ∀ i < 27, ∀ j < 27, 1 ≤ i → i ≤ j → gaussTable.getD j 0 ≤ gaussTable.getD i 0 := by decide +kernel

/-- **C47**: the magnitude is 0 exactly for first words (63 low bits) below entry 0; otherwise it exceeds `k` exactly for second words below entry `k`. -/
theorem C47_magnitude (r1 r2 : ℕ) :
    (magnitude r1 r2 = 0 ↔ r1 % 2 ^ 63 < gaussTable.getD 0 0) ∧
    (¬ r1 % 2 ^ 63 < gaussTable.getD 0 0 → ∀ k, 1 ≤ k → k ≤ 26 → (k < magnitude r1 r2 ↔ r2 % 2 ^ 63 < gaussTable.getD k 0)) := by
  have hr : (List.range 26).map (· + 1) = List.range' 1 26 := by decide
  have h26 : gaussTable.getD 26 0 = 0 := by decide
  by_cases h : r1 % 2 ^ 63 < gaussTable.getD 0 0
  · refine ⟨?_, fun h' => absurd h h'⟩
    unfold magnitude; rw [if_pos h]; simp only [true_iff]; exact h
  · have : ∃ m, magnitude r1 r2 = m ∧ 1 ≤ m ∧ m ≤ 26 ∧ gaussTable.getD m 0 ≤ r2 % 2 ^ 63 ∧ ∀ j, 1 ≤ j → j < m → r2 % 2 ^ 63 < gaussTable.getD j 0 := by
      unfold magnitude
      rw [if_neg h, hr]
      cases hf : (List.range' 1 26).find? (fun k => decide (gaussTable.getD k 0 ≤ r2 % 2 ^ 63)) with
      | none =>
        rw [List.find?_eq_none] at hf
        have := hf 26 (by decide)
        rw [h26] at this
        simp at this
      | some m =>
        rw [List.find?_range'_eq_some] at hf
        obtain ⟨h1, h2, h3⟩ := hf
        rw [List.mem_range'_1] at h2
        exact ⟨m, rfl, by omega, by omega, by simpa using h1, fun j hj hjm => by simpa using h3 j hj hjm⟩
    obtain ⟨m, hm, m1, m2, m3, m4⟩ := this
    rw [hm]
    refine ⟨⟨fun h' => by omega, fun h' => absurd h' h⟩, fun _ k k1 k2 => ⟨fun hk => m4 k k1 hk, fun hk => ?_⟩⟩
    by_contra hc
    have := gauss_sorted m (by omega) k (by omega) m1 (by omega)
    omega

theorem signed : ∀ v < 27, (((v ^^^ ((2 ^ 32 - 0) % 2 ^ 32)) + 0) % 2 ^ 32 = v ∧ ((v ^^^ ((2 ^ 32 - 1) % 2 ^ 32)) + 1) % 2 ^ 32 = if v = 0 then 0 else 2 ^ 32 - v) := by decide +kernel

/-- **C47**: one draw is the magnitude with the sign given by the top bit of the first word. -/
theorem C47_draw (r1 r2 : ℕ) (h : r1 < 2 ^ 64) : gaussDraw r1 r2 = if r1 < 2 ^ 63 then (magnitude r1 r2 : ℤ) else -(magnitude r1 r2 : ℤ) := by
  have hv : gaussScan (r2 % 2 ^ 63) ((List.range 26).map (· + 1)) (if r1 % 2 ^ 63 < gaussTable.getD 0 0 then 1 else 0) 0 = magnitude r1 r2 := by
    unfold magnitude
    split
    · rw [gaussScan_done]
    · rw [gaussScan_find]
  have hm := magnitude_le r1 r2
  unfold gaussDraw
  simp only
  rw [hv]
  generalize magnitude r1 r2 = v at *
  obtain ⟨s0, s1⟩ := signed v (by omega)
  by_cases h63 : r1 < 2 ^ 63
  · have : r1 >>> 63 = 0 := by rw [Nat.shiftRight_eq_div_pow, Nat.div_eq_of_lt h63]
    rw [this, s0, if_pos h63, if_neg (by omega)]
  · have : r1 >>> 63 = 1 := by rw [Nat.shiftRight_eq_div_pow]; omega
    rw [this, s1, if_neg h63]
    by_cases h0 : v = 0
    · subst h0; simp
    · rw [if_neg h0, if_pos (by omega)]
      omega

theorem le_lt (b : Bytes) (h : IsBytes b) : le b < 256 ^ b.length := by
  induction b with
  | nil => simp [le]
  | cons x b ih =>
    have h1 := ih fun y hy => h y (List.mem_cons_of_mem _ hy)
    have h2 := h x (by simp)
    show x + 256 * le b < 256 ^ (b.length + 1)
    rw [pow_succ]; omega

theorem gaussSum_range (R : Rng S) (hR : Honest R) (g : ℕ) (val : ℤ) (s : S) : |(gaussSum R g val s).1 - val| ≤ 26 * g := by
  induction g generalizing val s with
  | zero => simp [gaussSum]
  | succ g ih =>
    simp only [gaussSum]
    have hl : le (R 8 s).1 < 2 ^ 64 := by
      have := le_lt _ (hR 8 s).2
      rw [(hR 8 s).1] at this
      calc _ < 256 ^ 8 := this
        _ = 2 ^ 64 := by norm_num
    have hd := C47_draw _ (le (R 8 (R 8 s).2).1) hl
    have hm : ((magnitude (le (R 8 s).1) (le (R 8 (R 8 s).2).1) : ℕ) : ℤ) ≤ 26 := by exact_mod_cast magnitude_le _ _
    have hm0 : (0 : ℤ) ≤ (magnitude (le (R 8 s).1) (le (R 8 (R 8 s).2).1) : ℕ) := Int.natCast_nonneg _
    have hd' : -26 ≤ gaussDraw (le (R 8 s).1) (le (R 8 (R 8 s).2).1) ∧ gaussDraw (le (R 8 s).1) (le (R 8 (R 8 s).2).1) ≤ 26 := by
      rw [hd]; split <;> constructor <;> linarith
    have ih := ih (val + gaussDraw (le (R 8 s).1) (le (R 8 (R 8 s).2).1)) (R 8 (R 8 s).2).2
    generalize gaussDraw (le (R 8 s).1) (le (R 8 (R 8 s).2).1) = d at *
    rw [abs_le] at ih ⊢
    push_cast
    constructor <;> linarith

/-- **C47**: `mkgauss` returns a value of absolute value at most `26 · 2^(10 - logn)`; it raises exactly for `logn > 10`. -/
theorem C47_mkgauss (R : Rng S) (hR : Honest R) (logn : ℕ) (s : S) :
    (logn ≤ 10 → ∃ v s', mkgauss R logn s = .ok (v, s') ∧ |v| ≤ 26 * 2 ^ (10 - logn)) ∧ (10 < logn → mkgauss R logn s = .error .valueError) := by
  unfold mkgauss
  constructor
  · intro h
    rw [if_neg (by omega)]
    have := gaussSum_range R hR (1 <<< (10 - logn)) 0 s
    rw [sub_zero, Nat.one_shiftLeft] at this
    exact ⟨_, _, rfl, by rw [Nat.one_shiftLeft]; exact_mod_cast this⟩
  · intro h; rw [if_pos h]

theorem smallCoef_spec (R : Rng S) (n logn u mod2 fuel : ℕ) (s s' : S) (c : ℤ) (m : ℕ)
    (h : smallCoef R n logn u mod2 fuel s = some (.ok (c, m, s'))) :
    -127 ≤ c ∧ c ≤ 127 ∧ (u ≠ n - 1 → m = mod2 ^^^ (c % 2).toNat) ∧ (u = n - 1 → mod2 ^^^ (c % 2).toNat ≠ 0) := by
  induction fuel generalizing s with
  | zero => cases h
  | succ fuel ih =>
    simp only [smallCoef] at h
    split at h
    · cases h
    · rename_i v st hv
      split at h
      · exact ih _ h
      · rename_i hr
        split at h
        · rename_i hu
          split at h
          · exact ih _ h
          · rename_i hx
            cases h
            exact ⟨by omega, by omega, fun h => absurd hu h, fun _ => hx⟩
        · rename_i hu
          cases h
          exact ⟨by omega, by omega, fun _ => rfl, fun h => absurd h hu⟩

theorem xor_parity (m : ℕ) (a : ℤ) (c : ℤ) (hm : (m : ℤ) = a % 2) : ((m ^^^ (c % 2).toNat : ℕ) : ℤ) = (a + c) % 2 := by
  have h1 : a % 2 = 0 ∨ a % 2 = 1 := by omega
  have h2 : c % 2 = 0 ∨ c % 2 = 1 := by omega
  rcases h1 with h1 | h1 <;> rcases h2 with h2 | h2
  · have : m = 0 := by omega
    subst this; rw [h2]; simp; omega
  · have : m = 0 := by omega
    subst this; rw [h2]; simp; omega
  · have : m = 1 := by omega
    subst this; rw [h2]; simp; omega
  · have : m = 1 := by omega
    subst this; rw [h2]; simp; omega

theorem smallLoop_spec (R : Rng S) (n logn fuel k u mod2 : ℕ) (a : ℤ) (hm : (mod2 : ℤ) = a % 2) (hk : u + k = n) (s s' : S) (f : List ℤ)
    (h : smallLoop R n logn fuel k u mod2 s = some (.ok (f, s'))) :
    f.length = k ∧ (∀ c ∈ f, -127 ≤ c ∧ c ≤ 127) ∧ (0 < k → (a + f.sum) % 2 = 1) := by
  induction k generalizing u mod2 a s f with
  | zero =>
    simp only [smallLoop] at h
    cases h
    exact ⟨rfl, by simp, by omega⟩
  | succ k ih =>
    simp only [smallLoop] at h
    split at h
    · cases h
    · cases h
    · rename_i c m2 st hc
      obtain ⟨c1, c2, c3, c4⟩ := smallCoef_spec R n logn u mod2 fuel s st c m2 hc
      split at h
      · cases h
      · cases h
      · rename_i f' s'' hf
        cases h
        have hx := xor_parity mod2 a c hm
        by_cases hu : u = n - 1
        · have hk0 : k = 0 := by omega
          subst hk0
          simp only [smallLoop] at hf
          cases hf
          refine ⟨rfl, by simpa using ⟨c1, c2⟩, fun _ => ?_⟩
          have := c4 hu
          simp
          omega
        · have hm2 := c3 hu
          rw [← hm2] at hx
          obtain ⟨i1, i2, i3⟩ := ih (u + 1) m2 (a + c) hx (by omega) st f' hf
          refine ⟨by simp [i1], ?_, fun _ => ?_⟩
          · intro x hx
            rcases List.mem_cons.1 hx with rfl | hx
            · exact ⟨c1, c2⟩
            · exact i2 x hx
          · have := i3 (by omega)
            rw [List.sum_cons, ← add_assoc]; exact this

/-- **C47**: for every source of randomness, `poly_small_mkgauss` returns `n` coefficients of absolute value at most 127 whose sum is odd. -/
theorem C47_poly (R : Rng S) (n logn fuel : ℕ) (s s' : S) (f : List ℤ) (h : polySmall R n logn fuel s = some (.ok (f, s'))) :
    f.length = n ∧ (∀ c ∈ f, -127 ≤ c ∧ c ≤ 127) ∧ (0 < n → f.sum % 2 = 1) := by
  have := smallLoop_spec R n logn fuel n 0 0 0 rfl (by omega) s s' f h
  simpa using this

/-! ## Non-vacuity -/

/-- A source that counts: byte `i` of the stream is `(37 * i + 11) % 256`. -/
def toyRng : Rng ℕ := fun k s => ((List.range k).map fun i => (37 * (s + i) + 11) % 256, s + k)

theorem toyRng_honest : Honest toyRng := by
  intro k s
  refine ⟨by simp [toyRng], ?_⟩
  intro b hb
  simp only [toyRng, List.mem_map] at hb
  obtain ⟨i, _, rfl⟩ := hb
  exact Nat.mod_lt _ (by norm_num)

example : samplerz toyRng (5 / 2) (3 / 2) (13 / 10) 20 0 = some (.ok (3, 22)) := by decide +kernel
example : (1 : ℚ) ≤ 3 / 2 ∧ (3 / 2 : ℚ) ≤ maxSigma := by decide +kernel
example : polySmall toyRng 4 9 20 0 = some (.ok ([6, -5, -1, -3], 128)) := by decide +kernel
example : gaussDraw (2 ^ 63 + 2 ^ 62) (2 ^ 50) = -11 := by decide +kernel

end Verif.Sampler
