import Verif.CRef.Keygen
import Verif.CRef.Core
import Mathlib.Tactic.FieldSimp
import Mathlib.Tactic.LinearCombination

/-! # C90: arithmetic modulo a small prime in the key generation -/

namespace Verif.CRef.Kg

/-- `p` is an odd prime between `2^30` and `2^31`, and `p0i = -1/p` modulo `2^31`. -/
structure Modulus (p p0i : ℕ) : Prop where
  prime : Nat.Prime p
  lo : 1073741824 < p
  hi : p < 2147483648
  inv : (p * p0i + 1) % 2147483648 = 0

variable {p p0i : ℕ}

theorem mask0 (p : ℕ) : p &&& neg32 0 = 0 := by rw [show neg32 0 = 0 by decide, Nat.and_zero]
theorem mask1 (p : ℕ) (hp : p < 4294967296) : p &&& neg32 1 = p := by
  have := Nat.and_two_pow_sub_one_eq_mod p 32
  rw [show neg32 1 = 2 ^ 32 - 1 by decide, this]
  omega

theorem condAdd (p : ℕ) (hp : p < 4294967296) (d : ℕ) (h : d < 4294967296) :
    add32 d (p &&& neg32 (d >>> 31)) = if d < 2147483648 then d else (d + p) % 4294967296 := by
  rw [shift31 d h]
  split
  · rw [mask0]; unfold add32; omega
  · rw [mask1 p hp]; rfl

theorem modpAdd_eq (hp : p < 2147483648) (a b : ℕ) (ha : a < p) (hb : b < p) : modpAdd a b p = (a + b) % p := by
  unfold modpAdd
  dsimp only
  have hd : sub32 (add32 a b) p = if p ≤ a + b then a + b - p else a + b + 4294967296 - p := by
    unfold sub32 add32; split <;> omega
  have hlt : sub32 (add32 a b) p < 4294967296 := by unfold sub32; omega
  rw [condAdd p (by omega) _ hlt, hd]
  by_cases h : p ≤ a + b
  · rw [if_pos h, if_pos (by omega), Nat.mod_eq_sub_mod h, Nat.mod_eq_of_lt (show a + b - p < p by omega)]
  · rw [if_neg h, if_neg (by omega), Nat.mod_eq_of_lt (show a + b < p by omega)]; omega

theorem modpSub_eq (hp : p < 2147483648) (a b : ℕ) (ha : a < p) (hb : b < p) : modpSub a b p = (a + (p - b)) % p := by
  unfold modpSub
  dsimp only
  have hd : sub32 a b = if b ≤ a then a - b else a + 4294967296 - b := by
    unfold sub32; split <;> omega
  have hlt : sub32 a b < 4294967296 := by unfold sub32; omega
  rw [condAdd p (by omega) _ hlt, hd]
  by_cases h : b ≤ a
  · rw [if_pos h, if_pos (by omega), show a + (p - b) = (a - b) + p by omega, Nat.add_mod_right, Nat.mod_eq_of_lt (by omega)]
  · rw [if_neg h, if_neg (by omega), Nat.mod_eq_of_lt (show a + (p - b) < p by omega)]; omega

/-- One Newton step doubles the number of correct bits. -/
theorem newton (p y k : ℕ) (hk : 2 * k ≤ 32) (h : (2 : ℤ) ^ k ∣ 1 - p * y) : (2 : ℤ) ^ (2 * k) ∣ 1 - p * (mul32 y (sub32 2 (mul32 p y)) : ℕ) := by
  have e : ∃ c : ℤ, ((mul32 y (sub32 2 (mul32 p y)) : ℕ) : ℤ) = y * (2 - p * y) + 2 ^ 32 * c := by
    have h1 : ∃ c : ℤ, ((mul32 p y : ℕ) : ℤ) = p * y + 2 ^ 32 * c := by
      unfold mul32
      refine ⟨-(p * y / 4294967296 : ℤ), ?_⟩
      push_cast
      have := Int.emod_add_mul_ediv (p * y : ℤ) 4294967296
      linarith
    obtain ⟨c1, h1⟩ := h1
    have h2 : ∃ c : ℤ, ((sub32 2 (mul32 p y) : ℕ) : ℤ) = 2 - mul32 p y + 2 ^ 32 * c := by
      unfold sub32
      have hlt : mul32 p y < 4294967296 := Nat.mod_lt _ (by norm_num)
      generalize mul32 p y = w at hlt
      by_cases hw : w ≤ 2
      · exact ⟨0, by omega⟩
      · exact ⟨1, by omega⟩
    obtain ⟨c2, h2⟩ := h2
    have h3 : ∀ u : ℕ, ∃ c : ℤ, ((mul32 y u : ℕ) : ℤ) = y * u + 2 ^ 32 * c := by
      intro u
      unfold mul32
      refine ⟨-(y * u / 4294967296 : ℤ), ?_⟩
      push_cast
      have := Int.emod_add_mul_ediv (y * u : ℤ) 4294967296
      linarith
    obtain ⟨c3, h3⟩ := h3 (sub32 2 (mul32 p y))
    exact ⟨c3 + y * (c2 - c1), by rw [h3, h2, h1]; ring⟩
  obtain ⟨c, e⟩ := e
  rw [e]
  have h2 : (2 : ℤ) ^ (2 * k) ∣ (1 - p * y) * (1 - p * y) := by
    rw [two_mul, pow_add]; exact mul_dvd_mul h h
  have h3 : (2 : ℤ) ^ (2 * k) ∣ 2 ^ 32 * (p * c) := Dvd.dvd.mul_right (pow_dvd_pow 2 hk) _
  have := dvd_sub h2 h3
  rwa [show (1 - p * y) * (1 - p * y) - 2 ^ 32 * (p * c) = 1 - p * ((y : ℤ) * (2 - p * y) + 2 ^ 32 * c) by ring] at this

/-- C90: `modp_ninv31` returns `-1/p` modulo `2^31`, for every odd `p` below `2^31`. -/
theorem ninv31_eq (p : ℕ) (hp : p < 2147483648) (ho : p % 2 = 1) : modpNinv31 p < 2147483648 ∧ (p * modpNinv31 p + 1) % 2147483648 = 0 := by
  unfold modpNinv31
  extract_lets y0 y1 y2 y3 y4
  have h0 : (2 : ℤ) ^ 2 ∣ 1 - p * (y0 : ℕ) := by
    have e : ∃ c : ℤ, ((y0 : ℕ) : ℤ) = 2 - p + 2 ^ 32 * c := by
      show ∃ c : ℤ, ((sub32 2 p : ℕ) : ℤ) = _
      unfold sub32
      by_cases hw : p ≤ 2
      · exact ⟨0, by omega⟩
      · exact ⟨1, by omega⟩
    obtain ⟨c, e⟩ := e
    obtain ⟨m, hm⟩ : ∃ m, p = 2 * m + 1 := ⟨p / 2, by omega⟩
    rw [e, hm]
    refine ⟨(m : ℤ) * m - (2 * m + 1) * 2 ^ 30 * c, ?_⟩
    push_cast; ring
  have h1 : (2 : ℤ) ^ 4 ∣ 1 - p * (y1 : ℕ) := newton p y0 2 (by norm_num) h0
  have h2 : (2 : ℤ) ^ 8 ∣ 1 - p * (y2 : ℕ) := newton p y1 4 (by norm_num) h1
  have h3 : (2 : ℤ) ^ 16 ∣ 1 - p * (y3 : ℕ) := newton p y2 8 (by norm_num) h2
  have h4 : (2 : ℤ) ^ 32 ∣ 1 - p * (y4 : ℕ) := newton p y3 16 (by norm_num) h3
  have hy : y4 < 4294967296 := by
    show mul32 y3 _ < 4294967296
    unfold mul32; exact Nat.mod_lt _ (by norm_num)
  clear_value y4
  have e : 0x7FFFFFFF &&& neg32 y4 = (4294967296 - y4) % 2147483648 := by
    have := Nat.and_two_pow_sub_one_eq_mod (neg32 y4) 31
    rw [Nat.and_comm, show 0x7FFFFFFF = 2 ^ 31 - 1 by norm_num, this]
    unfold neg32 sub32; omega
  rw [e]
  refine ⟨by omega, ?_⟩
  obtain ⟨c, hc⟩ := h4
  have e2 : ∃ d : ℤ, (((4294967296 - y4) % 2147483648 : ℕ) : ℤ) = -y4 + 2147483648 * d := ⟨2 - (4294967296 - y4) / 2147483648, by omega⟩
  obtain ⟨d, e2⟩ := e2
  have : ((p * ((4294967296 - y4) % 2147483648) + 1 : ℕ) : ℤ) = 2147483648 * (2 * c + p * d) := by
    rw [Nat.cast_add, Nat.cast_mul, e2]; push_cast; linear_combination hc
  omega

theorem montymul_raw (M : Modulus p p0i) (a b : ℕ) (ha : a < p) (hb : b < p) :
    modpMontymul a b p p0i < p ∧ ∃ c, modpMontymul a b p p0i * 2147483648 + p * c = a * b ∨ modpMontymul a b p p0i * 2147483648 = a * b + p * c := by
  have hlo := M.lo
  have hp := M.hi
  have hab : a * b < p * 2147483648 := by
    calc a * b ≤ a * p := Nat.mul_le_mul_left _ hb.le
      _ < p * 2147483648 := by
        rw [Nat.mul_comm]; exact Nat.mul_lt_mul_of_pos_left (by omega) (by omega)
  have hpp : p * 2147483648 < 2147483648 * 2147483648 := Nat.mul_lt_mul_of_pos_right hp (by norm_num)
  unfold modpMontymul
  dsimp only
  have e1 : a * b % 18446744073709551616 = a * b := Nat.mod_eq_of_lt (by omega)
  rw [e1]
  obtain ⟨z, hz⟩ : ∃ z, z = a * b := ⟨_, rfl⟩
  rw [← hz] at hab ⊢
  clear hz e1
  have e2 : z * p0i % 18446744073709551616 &&& 0x7FFFFFFF = z * p0i % 2147483648 := by
    have := Nat.and_two_pow_sub_one_eq_mod (z * p0i % 18446744073709551616) 31
    rw [show 2 ^ 31 - 1 = 0x7FFFFFFF from rfl] at this
    rw [this]
    omega
  rw [e2]
  obtain ⟨t, ht⟩ : ∃ t, t = z * p0i % 2147483648 := ⟨_, rfl⟩
  rw [← ht]
  have ht' : t < 2147483648 := by omega
  have htp : t * p < 2147483648 * p := Nat.mul_lt_mul_of_pos_right ht' (by omega)
  have e3 : t * p % 18446744073709551616 = t * p := Nat.mod_eq_of_lt (by omega)
  have e4 : (z + t * p) % 18446744073709551616 = z + t * p := Nat.mod_eq_of_lt (by omega)
  rw [e3, e4, Nat.shiftRight_eq_div_pow]
  have hdiv : (z + t * p) % 2147483648 = 0 := by
    have : (z + t * p) % 2147483648 = (z * (p * p0i + 1)) % 2147483648 := by
      rw [ht, Nat.add_mod, Nat.mod_mul_mod, ← Nat.add_mod]; congr 1; ring
    rw [this, Nat.mul_mod, M.inv, Nat.mul_zero, Nat.zero_mod]
  obtain ⟨r, hr⟩ : ∃ r, z + t * p = r * 2147483648 := ⟨(z + t * p) / 2147483648, by omega⟩
  have hr2 : (z + t * p) / 2 ^ 31 = r := by omega
  rw [hr2]
  have hrlt : r < 2 * p := by omega
  rw [Nat.mod_eq_of_lt (show r < 4294967296 by omega)]
  have hlt : sub32 r p < 4294967296 := by unfold sub32; omega
  rw [condAdd p (by omega) _ hlt]
  have hd : sub32 r p = if p ≤ r then r - p else r + 4294967296 - p := by
    unfold sub32; split <;> omega
  rw [hd]
  by_cases h : p ≤ r
  · rw [if_pos h, if_pos (by omega)]
    refine ⟨by omega, ?_⟩
    rcases Nat.lt_or_ge t 2147483648 with h' | h'
    · refine ⟨2147483648 - t, Or.inl ?_⟩
      have e : p * (2147483648 - t) + t * p = p * 2147483648 := by rw [Nat.mul_comm t p, ← Nat.mul_add]; congr 1; omega
      have e5 : (r - p) * 2147483648 + p * 2147483648 = r * 2147483648 := by rw [← Nat.add_mul]; congr 1; omega
      omega
    · omega
  · rw [if_neg h, if_neg (by omega), show r + 4294967296 - p + p = r + 4294967296 by omega, Nat.add_mod_right, Nat.mod_eq_of_lt (show r < 4294967296 by omega)]
    exact ⟨by omega, t, Or.inr (by rw [Nat.mul_comm p t]; omega)⟩

theorem montymul_lt (M : Modulus p p0i) (a b : ℕ) (ha : a < p) (hb : b < p) : modpMontymul a b p p0i < p := (montymul_raw M a b ha hb).1

/-- The Montgomery factor. -/
def Rf (p : ℕ) : ZMod p := 2147483648

theorem Rf_ne (M : Modulus p p0i) : Rf p ≠ 0 := by
  intro h
  have : ((2147483648 : ℕ) : ZMod p) = 0 := by unfold Rf at h; exact_mod_cast h
  rw [ZMod.natCast_eq_zero_iff] at this
  have h2 : p ∣ 2 ^ 31 := by norm_num; exact this
  have := (Nat.prime_dvd_prime_iff_eq M.prime Nat.prime_two).1 (M.prime.dvd_of_dvd_pow h2)
  have := M.lo
  omega

/-- C90: `modp_montymul` in the field: `a*b/R`. -/
theorem cast_mm (M : Modulus p p0i) (a b : ℕ) (ha : a < p) (hb : b < p) : ((modpMontymul a b p p0i : ℕ) : ZMod p) * Rf p = a * b := by
  obtain ⟨_, c, h | h⟩ := montymul_raw M a b ha hb
  · have := congrArg (fun x : ℕ => (x : ZMod p)) h
    unfold Rf
    push_cast at this
    rw [CharP.cast_eq_zero (ZMod p) p] at this
    rw [← this]; ring
  · have := congrArg (fun x : ℕ => (x : ZMod p)) h
    unfold Rf
    push_cast at this
    rw [CharP.cast_eq_zero (ZMod p) p] at this
    rw [this]; ring

theorem modpR_eq (M : Modulus p p0i) : modpR p < p ∧ ((modpR p : ℕ) : ZMod p) = Rf p := by
  have hlo := M.lo
  have hp := M.hi
  have e : modpR p = 2147483648 - p := by unfold modpR sub32; omega
  refine ⟨by omega, ?_⟩
  have h := congrArg (fun x : ℕ => (x : ZMod p)) (show modpR p + p = 2147483648 by omega)
  unfold Rf
  push_cast at h
  rw [CharP.cast_eq_zero (ZMod p) p, add_zero] at h
  exact h

/-- A word below `p` that represents `x` in Montgomery form. -/
def Mont (p v : ℕ) (x : ZMod p) : Prop := v < p ∧ (v : ZMod p) = x * Rf p

/-- A word below `p` that represents `x`. -/
def Plain (p v : ℕ) (x : ZMod p) : Prop := v < p ∧ (v : ZMod p) = x

theorem Mont.mul (M : Modulus p p0i) {a b : ℕ} {x y : ZMod p} (ha : Mont p a x) (hb : Mont p b y) : Mont p (modpMontymul a b p p0i) (x * y) := by
  refine ⟨montymul_lt M a b ha.1 hb.1, ?_⟩
  have : Fact p.Prime := ⟨M.prime⟩
  have h := cast_mm M a b ha.1 hb.1
  rw [ha.2, hb.2] at h
  exact mul_right_cancel₀ (Rf_ne M) (by rw [h]; ring)

theorem Plain.mulMont (M : Modulus p p0i) {a b : ℕ} {x y : ZMod p} (ha : Plain p a x) (hb : Mont p b y) : Plain p (modpMontymul a b p p0i) (x * y) := by
  refine ⟨montymul_lt M a b ha.1 hb.1, ?_⟩
  have : Fact p.Prime := ⟨M.prime⟩
  have h := cast_mm M a b ha.1 hb.1
  rw [ha.2, hb.2] at h
  exact mul_right_cancel₀ (Rf_ne M) (by rw [h]; ring)

theorem Plain.add (M : Modulus p p0i) {a b : ℕ} {x y : ZMod p} (ha : Plain p a x) (hb : Plain p b y) : Plain p (modpAdd a b p) (x + y) := by
  unfold Plain
  rw [modpAdd_eq M.hi a b ha.1 hb.1]
  refine ⟨Nat.mod_lt _ (by have := ha.1; omega), ?_⟩
  rw [ZMod.natCast_mod, Nat.cast_add, ha.2, hb.2]

theorem Plain.sub (M : Modulus p p0i) {a b : ℕ} {x y : ZMod p} (ha : Plain p a x) (hb : Plain p b y) : Plain p (modpSub a b p) (x - y) := by
  unfold Plain
  rw [modpSub_eq M.hi a b ha.1 hb.1]
  refine ⟨Nat.mod_lt _ (by have := ha.1; omega), ?_⟩
  rw [ZMod.natCast_mod, Nat.cast_add, Nat.cast_sub hb.1.le, ha.2, hb.2, CharP.cast_eq_zero (ZMod p) p]; ring

theorem mont_R (M : Modulus p p0i) : Mont p (modpR p) 1 := by
  obtain ⟨h1, h2⟩ := modpR_eq M
  exact ⟨h1, by rw [h2, one_mul]⟩

theorem halve (M : Modulus p p0i) (z : ℕ) (hz : z < p) : add32 z (p &&& neg32 (z &&& 1)) >>> 1 < p ∧ (2 : ZMod p) * ((add32 z (p &&& neg32 (z &&& 1)) >>> 1 : ℕ) : ZMod p) = z := by
  have hp := M.hi
  have hodd : p % 2 = 1 := by
    rcases M.prime.eq_two_or_odd with h | h
    · have := M.lo; omega
    · exact h
  have key : ∀ w : ℕ, (2 * w = z ∨ 2 * w = z + p) → (2 : ZMod p) * (w : ZMod p) = z := by
    rintro w (h | h)
    · have := congrArg (fun x : ℕ => (x : ZMod p)) h
      push_cast at this; exact this
    · have := congrArg (fun x : ℕ => (x : ZMod p)) h
      push_cast at this
      rw [CharP.cast_eq_zero (ZMod p) p, add_zero] at this; exact this
  rw [Nat.and_one_is_mod, Nat.shiftRight_eq_div_pow]
  rcases Nat.mod_two_eq_zero_or_one z with h | h
  · rw [h, mask0]
    unfold add32
    rw [Nat.mod_eq_of_lt (show z + 0 < 4294967296 by omega), pow_one]
    exact ⟨by omega, key _ (Or.inl (by omega))⟩
  · rw [h, mask1 p (by omega)]
    unfold add32
    rw [Nat.mod_eq_of_lt (show z + p < 4294967296 by omega), pow_one]
    exact ⟨by omega, key _ (Or.inr (by omega))⟩

/-- C90: `modp_R2` is `2^62` modulo `p`. -/
theorem modpR2_eq (M : Modulus p p0i) : Mont p (modpR2 p p0i) (Rf p) := by
  have : Fact p.Prime := ⟨M.prime⟩
  unfold modpR2
  extract_lets z0 z1 z2 z3 z4 z5 z6
  have h0 : Mont p z0 1 := mont_R M
  have h1 : Mont p z1 2 := by
    obtain ⟨a, b⟩ := Plain.add M (a := z0) (b := z0) (x := Rf p) (y := Rf p) ⟨h0.1, by rw [h0.2, one_mul]⟩ ⟨h0.1, by rw [h0.2, one_mul]⟩
    exact ⟨a, by rw [show z1 = modpAdd z0 z0 p from rfl, b]; ring⟩
  have h2 : Mont p z2 (2 * 2) := Mont.mul M h1 h1
  have h3 : Mont p z3 (2 * 2 * (2 * 2)) := Mont.mul M h2 h2
  have h4 : Mont p z4 _ := Mont.mul M h3 h3
  have h5 : Mont p z5 _ := Mont.mul M h4 h4
  have h6 : Mont p z6 _ := Mont.mul M h5 h5
  clear_value z6
  obtain ⟨e1, e2⟩ := halve M z6 h6.1
  refine ⟨e1, ?_⟩
  have h2' : (2 : ZMod p) ≠ 0 := by
    intro h
    have : ((2 : ℕ) : ZMod p) = 0 := by exact_mod_cast h
    rw [ZMod.natCast_eq_zero_iff] at this
    have := Nat.le_of_dvd (by norm_num) this
    have := M.lo
    omega
  apply mul_left_cancel₀ h2'
  rw [e2, h6.2]
  unfold Rf; ring

/-! ## Division -/

theorem xor_select (z z2 b : ℕ) (hz : z < 4294967296) (hz2 : z2 < 4294967296) (hb : b < 2) : z ^^^ ((z ^^^ z2) &&& neg32 b) = if b = 1 then z2 else z := by
  rcases (show b = 0 ∨ b = 1 by omega) with rfl | rfl
  · rw [mask0, Nat.xor_zero]; rfl
  · rw [mask1 _ (Nat.xor_lt_two_pow (n := 32) hz hz2), ← Nat.xor_assoc, Nat.xor_self, Nat.zero_xor]; rfl

theorem divStep (M : Modulus p p0i) {b z e i : ℕ} {x : ZMod p} (hb : Mont p b x) (hz : Mont p z (x ^ (e >>> (i + 1)))) : Mont p (modpDivStep b p p0i e z i) (x ^ (e >>> i)) := by
  unfold modpDivStep
  have h1 := Mont.mul M hz hz
  have h2 := Mont.mul M h1 hb
  have hp := M.hi
  dsimp only
  rw [xor_select _ _ _ (by have := h1.1; omega) (by have := h2.1; omega) (by rw [Nat.and_one_is_mod]; omega)]
  have e1 : e >>> i = 2 * (e >>> (i + 1)) + e >>> i % 2 := by rw [Nat.shiftRight_succ]; omega
  rw [Nat.and_one_is_mod]
  split
  · next h => rw [e1, h, pow_succ, two_mul, pow_add]; exact h2
  · next h =>
    have : e >>> i % 2 = 0 := by omega
    rw [e1, this, add_zero, two_mul, pow_add]; exact h1

/-- C90: `modp_div`: the divisor is read in normal form. -/
theorem modpDiv_eq (M : Modulus p p0i) (a b : ℕ) (ha : a < p) (hb : b < p) :
    modpDiv a b p p0i (modpR p) < p ∧ ((modpDiv a b p p0i (modpR p) : ℕ) : ZMod p) = a * (b : ZMod p)⁻¹ := by
  have : Fact p.Prime := ⟨M.prime⟩
  have hlo := M.lo
  have hhi := M.hi
  have hR := Rf_ne M
  have hbm : Mont p b (b * (Rf p)⁻¹) := ⟨hb, by rw [mul_assoc, inv_mul_cancel₀ hR, mul_one]⟩
  have e : sub32 p 2 = p - 2 := by unfold sub32; omega
  unfold modpDiv
  rw [e]
  have key : ∀ n ≤ 31, Mont p ((List.range n).foldl (fun z j => modpDivStep b p p0i (p - 2) z (30 - j)) (modpR p)) ((b * (Rf p)⁻¹) ^ ((p - 2) >>> (31 - n))) := by
    intro n
    induction n with
    | zero =>
      intro _
      rw [show (p - 2) >>> (31 - 0) = 0 by rw [Nat.shiftRight_eq_div_pow]; omega, pow_zero]
      exact mont_R M
    | succ n ih =>
      intro hn
      rw [List.range_succ, List.foldl_append, List.foldl_cons, List.foldl_nil, show 31 - (n + 1) = 30 - n by omega]
      apply divStep M hbm
      rw [show 30 - n + 1 = 31 - n by omega]
      exact ih (by omega)
  have h := key 31 le_rfl
  rw [show 31 - 31 = 0 by rfl, Nat.shiftRight_zero] at h
  generalize (List.range 31).foldl (fun z j => modpDivStep b p p0i (p - 2) z (30 - j)) (modpR p) = z at h
  dsimp only
  have h1 : Plain p (modpMontymul z 1 p p0i) ((b * (Rf p)⁻¹) ^ (p - 2)) := by
    have h1p : (1 : ℕ) < p := by omega
    refine ⟨montymul_lt M z 1 h.1 h1p, ?_⟩
    have := cast_mm M z 1 h.1 h1p
    rw [h.2, Nat.cast_one, mul_one] at this
    exact mul_right_cancel₀ hR this
  generalize modpMontymul z 1 p p0i = y at h1
  refine ⟨montymul_lt M a y ha h1.1, ?_⟩
  have h2 := cast_mm M a y ha h1.1
  rw [h1.2] at h2
  apply mul_right_cancel₀ hR
  rw [h2]
  by_cases hb0 : (b : ZMod p) = 0
  · rw [hb0, zero_mul, zero_pow (by omega), inv_zero, mul_zero, zero_mul]
  · have hx : (b : ZMod p) * (Rf p)⁻¹ ≠ 0 := mul_ne_zero hb0 (inv_ne_zero hR)
    have hf := ZMod.pow_card_sub_one_eq_one hx
    have : ((b : ZMod p) * (Rf p)⁻¹) ^ (p - 2) = ((b : ZMod p) * (Rf p)⁻¹)⁻¹ := by
      apply eq_inv_of_mul_eq_one_left
      rw [← pow_succ, show p - 2 + 1 = p - 1 by omega]; exact hf
    rw [this, mul_inv, inv_inv]; ring

theorem modpSet_eq (M : Modulus p p0i) (x : ℤ) (h1 : -(p : ℤ) < x) (h2 : x < p) : Plain p (modpSet x p) (x : ZMod p) := by
  have hp := M.hi
  have hlo := M.lo
  unfold modpSet
  have hu : u32 x < 4294967296 := by unfold u32; omega
  dsimp only
  unfold Plain
  rw [condAdd p (by omega) _ hu]
  unfold u32
  by_cases h : 0 ≤ x
  · obtain ⟨n, rfl⟩ := Int.eq_ofNat_of_zero_le h
    rw [if_pos (by omega), show ((n : ℤ) % 4294967296).toNat = n by omega]
    exact ⟨by omega, by simp⟩
  · obtain ⟨n, hn⟩ : ∃ n : ℕ, x + p = n := Int.eq_ofNat_of_zero_le (by omega)
    have e : ((x % 4294967296).toNat + p) % 4294967296 = n := by omega
    rw [if_neg (by omega), e]
    refine ⟨by omega, ?_⟩
    have := congrArg (fun z : ℤ => (z : ZMod p)) hn
    push_cast at this
    rw [CharP.cast_eq_zero (ZMod p) p, add_zero] at this
    exact this.symm

end Verif.CRef.Kg
