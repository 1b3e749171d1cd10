import Verif.CRef.SignSamplerThr
import Verif.CRef.PrngProps
import Verif.Sampler.Props

/-! # C98: the sampler of the C signer -/

namespace Verif.CRef.SignSampler
open Verif.CRef Verif.CRef.Fpr Verif.CRef.Prng

/-! ## Specification -/

/-- A state of the generator that occurs: `p` stands at some place of the ChaCha20 stream of some seed (C95). -/
def Live (p : Prng) : Prop := ∃ src j pos, At p src j pos

/-- Lazy comparison of a uniform number with `T`: bytes are read, most significant first, until one differs from the byte of `T`; the answer says whether the number is below `T`. -/
def lazyLess (T : ℕ) : ℕ → Prng → Bool × Prng
  | 0, p => (false, p)
  | m + 1, p => if (getU8 p).1 = T / 256 ^ m % 256 then lazyLess T m (getU8 p).2 else (decide ((getU8 p).1 < T / 256 ^ m % 256), (getU8 p).2)

/-- The value proposed by `z0` and the sign bit `b`: `-z0` or `1 + z0`. -/
def candidate (z0 b : ℕ) : ℤ := if b = 0 then -z0 else 1 + z0

/-- Rejection sampling around the integer `m`: 72 bits give `z0`, a byte gives the bit, and the candidate is kept when a uniform 64-bit number is below `T z0 b`. -/
def trials (m : ℤ) (T : ℕ → ℕ → ℕ) : ℕ → Prng → Option (ℤ × Prng)
  | 0, _ => none
  | fuel + 1, p =>
    let lo := getU64 p
    let hi := getU8 lo.2
    let v := getU8 hi.2
    let z0 := Sampler.baseOf (lo.1 + 2 ^ 64 * hi.1)
    let b := v.1 % 2
    let a := lazyLess (T z0 b) 8 v.2
    if a.1 then some (m + candidate z0 b, a.2) else trials m T fuel a.2

/-! ## The generator -/

theorem leNat_lt (l : List ℕ) (h : ∀ d ∈ l, d < 256) : Rng.leNat l < 256 ^ l.length := by
  induction l with
  | nil => simp [Rng.leNat]
  | cons d l ih =>
    have h1 := ih fun x hx => h x (List.mem_cons_of_mem _ hx)
    have h2 := h d (by simp)
    rw [List.length_cons, pow_succ]
    show d + 256 * Rng.leNat l < _
    omega

theorem valueAt_lt (src : Bytes) (j pos k : ℕ) (h : pos + k ≤ 512) : valueAt src (j, pos, k) < 256 ^ k := by
  unfold valueAt
  have hl : (((Rng.chunk src j).drop pos).take k).length = k := by
    rw [List.length_take, List.length_drop, Rng.chunk_length]; omega
  have := leNat_lt (((Rng.chunk src j).drop pos).take k) ?_
  · rwa [hl] at this
  · intro d hd
    have hd := List.mem_of_mem_drop (List.mem_of_mem_take hd)
    obtain ⟨i, hi, e⟩ := List.getElem_of_mem hd
    have := chunk_lt src j i
    rw [List.getD_eq_getElem _ _ hi, e] at this
    exact this

theorem getU8_live (p : Prng) (h : Live p) : (getU8 p).1 < 256 ∧ Live (getU8 p).2 := by
  obtain ⟨src, j, pos, h⟩ := h
  obtain ⟨h1, h2⟩ := getU8_spec p src j pos h
  refine ⟨by rw [h1]; exact valueAt_lt src j pos 1 (by have := h.2.2.2; omega), ?_⟩
  split at h2
  · exact ⟨_, _, _, h2⟩
  · exact ⟨_, _, _, h2⟩

theorem getU64_live (p : Prng) (h : Live p) : (getU64 p).1 < 2 ^ 64 ∧ Live (getU64 p).2 := by
  obtain ⟨src, j, pos, h⟩ := h
  have h1 := getU64_spec p src j pos h
  split at h1
  · exact ⟨by rw [h1.1]; exact (valueAt_lt src j pos 8 (by omega)).trans_eq (by norm_num), _, _, _, h1.2⟩
  · exact ⟨by rw [h1.1]; exact (valueAt_lt src (j + 1) 0 8 (by omega)).trans_eq (by norm_num), _, _, _, h1.2⟩

/-- The states after `prng_init` occur. -/
theorem live_init (buf tmp : Bytes) (hb : buf.length = 512) (h : IsBytes tmp) : Live (initWith buf tmp) := by
  obtain ⟨h1, h2, h3⟩ := C95_init buf tmp hb h
  exact ⟨tmp, 0, 0, h1, h2, h3, by norm_num⟩

/-! ## BerExp -/

theorem lazyLess_live (T m : ℕ) (p : Prng) (h : Live p) : Live (lazyLess T m p).2 := by
  induction m generalizing p with
  | zero => exact h
  | succ m ih =>
    unfold lazyLess
    have := (getU8_live p h).2
    split
    · exact ih _ this
    · exact this

theorem byte_diff (v t : ℕ) (hv : v < 256) (ht : t < 256) (w : BitVec 32) (hw : w.toNat = t) :
    (BitVec.ofNat 32 v - w = 0 ↔ v = t) ∧ ((BitVec.ofNat 32 v - w) >>> 31 ≠ 0 ↔ v < t) := by
  have e : (BitVec.ofNat 32 v - w).toNat = (2 ^ 32 - t + v) % 2 ^ 32 := by
    rw [BitVec.toNat_sub, BitVec.toNat_ofNat, hw]; omega
  constructor
  · rw [← BitVec.toNat_inj, e]
    show _ = 0 ↔ _
    omega
  · rw [ne_eq, ← BitVec.toNat_inj, BitVec.toNat_ushiftRight, Nat.shiftRight_eq_div_pow, e]
    show ¬ (_ = 0) ↔ _
    omega

theorem berLoop_cons (z : W) (i : ℕ) (is : List ℕ) (w : BitVec 32) (p : Prng) (v : ℕ) (q : Prng) (h : getU8 p = (v, q)) :
    berLoop z (i :: is) w p = if BitVec.ofNat 32 v - ((z >>> i).setWidth 32 &&& 0xFF#32) = 0 then berLoop z is (BitVec.ofNat 32 v - ((z >>> i).setWidth 32 &&& 0xFF#32)) q
      else (BitVec.ofNat 32 v - ((z >>> i).setWidth 32 &&& 0xFF#32), q) := by
  rw [berLoop, h]

theorem lazyLess_succ (T m : ℕ) (p : Prng) (v : ℕ) (q : Prng) (h : getU8 p = (v, q)) :
    lazyLess T (m + 1) p = if v = T / 256 ^ m % 256 then lazyLess T m q else (decide (v < T / 256 ^ m % 256), q) := by
  rw [lazyLess, h]

theorem berLoop_spec (z : W) (m : ℕ) (w : BitVec 32) (hw : w = 0) (p : Prng) (h : Live p) :
    (decide ((berLoop z (Sampler.shifts m) w p).1 >>> 31 ≠ 0), (berLoop z (Sampler.shifts m) w p).2) = lazyLess z.toNat m p := by
  induction m generalizing w p with
  | zero => subst hw; simp [Sampler.shifts, berLoop, lazyLess]
  | succ m ih =>
    obtain ⟨h1, h2⟩ := getU8_live p h
    obtain ⟨v, q, e⟩ : ∃ v q, getU8 p = (v, q) := ⟨_, _, rfl⟩
    rw [e] at h1 h2
    have ht : ((z >>> (8 * m)).setWidth 32 &&& 0xFF#32).toNat = z.toNat / 256 ^ m % 256 := by
      rw [BitVec.toNat_and, show (0xFF#32).toNat = 2 ^ 8 - 1 by rfl, and_mask, BitVec.toNat_setWidth, toNat_shr, pow_mul]
      norm_num
    have hb := byte_diff v _ h1 (Nat.mod_lt _ (by norm_num)) _ ht
    rw [Sampler.shifts, berLoop_cons _ _ _ _ _ _ _ e, lazyLess_succ _ _ _ _ _ e]
    generalize BitVec.ofNat 32 v - ((z >>> (8 * m)).setWidth 32 &&& 0xFF#32) = d at *
    by_cases c : v = z.toNat / 256 ^ m % 256
    · rw [if_pos c, if_pos (hb.1.2 c)]
      exact ih _ (hb.1.2 c) _ h2
    · rw [if_neg c, if_neg (fun e => c (hb.1.1 e))]
      simp only [hb.2]

theorem shifts8 : Sampler.shifts 8 = [56, 48, 40, 32, 24, 16, 8, 0] := rfl

theorem berExp_lazy (p : Prng) (h : Live p) (x ccs : W) : berExp p x ccs = lazyLess (threshold x ccs).toNat 8 p := by
  have hs := berLoop_spec (threshold x ccs) 8 0 rfl p h
  rw [shifts8] at hs
  exact hs

theorem run_u8_lt (m : ℕ) (p : Prng) (h : Live p) : (run p (List.replicate m .u8)).1.length = m ∧ ∀ d ∈ (run p (List.replicate m .u8)).1, d < 256 := by
  induction m generalizing p with
  | zero => simp [run]
  | succ m ih =>
    obtain ⟨h1, h2⟩ := getU8_live p h
    obtain ⟨i1, i2⟩ := ih _ h2
    rw [List.replicate_succ]
    simp only [run, List.length_cons, i1, true_and]
    intro d hd
    rcases List.mem_cons.1 hd with rfl | hd
    · exact h1
    · exact i2 d hd

/-- The lazy comparison is the comparison of the number made of the next bytes. -/
theorem lazyLess_law (T m : ℕ) (p : Prng) (h : Live p) : (lazyLess T m p).1 = decide (Sampler.be (run p (List.replicate m .u8)).1 < T % 256 ^ m) := by
  induction m generalizing p with
  | zero => simp [lazyLess, run, Sampler.be, Nat.mod_one]
  | succ m ih =>
    obtain ⟨h1, h2⟩ := getU8_live p h
    obtain ⟨i1, i2⟩ := run_u8_lt m _ h2
    have hlt := Sampler.be_lt _ i2
    rw [i1] at hlt
    rw [List.replicate_succ]
    simp only [run, lazyLess, Sampler.be, i1]
    have hz : T % 256 ^ (m + 1) = T / 256 ^ m % 256 * 256 ^ m + T % 256 ^ m := by
      rw [pow_succ, Nat.mod_mul]; ring
    have hm : T % 256 ^ m < 256 ^ m := Nat.mod_lt _ (by positivity)
    rw [hz]
    have ih := ih _ h2
    generalize (run (getU8 p).2 (List.replicate m .u8)).1 = l at *
    generalize (getU8 p).1 = v at *
    generalize T / 256 ^ m % 256 = t at *
    by_cases c : v = t
    · rw [if_pos c, ih, decide_eq_decide, c]; omega
    · rw [if_neg c, decide_eq_decide]
      constructor
      · intro h3
        have := Nat.mul_le_mul_right (256 ^ m) (show v + 1 ≤ t by omega)
        rw [Nat.add_mul, Nat.one_mul] at this
        omega
      · intro h3
        by_contra h4
        have := Nat.mul_le_mul_right (256 ^ m) (show t + 1 ≤ v by omega)
        rw [Nat.add_mul, Nat.one_mul] at this
        omega

/-- **C98**: `BerExp` answers 1 exactly when the next eight bytes of the generator, as a big-endian number, are below a threshold within `2^15` of `2^64 · ccs · exp(-x)`. -/
theorem C98_berexp (x ccs : W) (hx : Ok x) (h0 : 0 ≤ val x) (h1 : val x ≤ 1000) (c0 : 1 / 2 ≤ val ccs) (c1 : val ccs < 1) :
    ∃ T : ℕ, |(T : ℝ) / 2 ^ 64 - val ccs * Real.exp (-val x)| ≤ 1 / 2 ^ 49 ∧ ∀ p, Live p → (berExp p x ccs).1 = decide (Sampler.be (run p (List.replicate 8 .u8)).1 < T) := by
  refine ⟨(threshold x ccs).toNat, C98_threshold x ccs hx h0 h1 c0 c1, fun p hp => ?_⟩
  rw [berExp_lazy p hp, lazyLess_law _ _ _ hp, Nat.mod_eq_of_lt ((threshold x ccs).isLt.trans_eq (by norm_num))]

/-- `x = 3`, `ccs = 0.75`. -/
example : ∃ x ccs : W, Ok x ∧ val x = 3 ∧ val ccs = 3 / 4 := by
  refine ⟨0x4008000000000000#64, 0x3FE8000000000000#64, by unfold Ok expo mant; decide, ?_, ?_⟩
  · rw [val_word _ 0 1024 2251799813685248 (fields_dec _ _ _ _ (by decide)) (by norm_num)]; norm_num
  · rw [val_word _ 0 1022 2251799813685248 (fields_dec _ _ _ _ (by decide)) (by norm_num)]; norm_num

/-- **C98**: the scaling factor 1 (`sigma = sigma_min`) is not handled: `BerExp(0.5, 1.0)` answers 1 for all but one of the `2^64` numbers, although `exp(-0.5) < 0.61`. -/
theorem C98_scale_one_false : val 0x3FE0000000000000#64 = 1 / 2 ∧ val fprOne = 1 ∧ (threshold 0x3FE0000000000000#64 fprOne).toNat = 2 ^ 64 - 1 ∧ Real.exp (-(1 / 2)) < 0.61 := by
  refine ⟨?_, C100_exact.2.2.1, by decide +kernel, ?_⟩
  · rw [val_word _ 0 1022 0 (fields_dec _ _ _ _ (by decide)) (by norm_num)]; norm_num
  · have h := Real.exp_neg (1 / 2)
    rw [h]
    have h2 : (1.64 : ℝ) < Real.exp (1 / 2) := by
      have := Real.sum_le_exp_of_nonneg (x := 1 / 2) (by norm_num) 6
      simp only [Finset.sum_range_succ, Finset.sum_range_zero, Nat.factorial] at this
      norm_num at this ⊢
      linarith
    rw [inv_lt_comm₀ (Real.exp_pos _) (by norm_num)]
    norm_num at h2 ⊢
    linarith

end Verif.CRef.SignSampler
