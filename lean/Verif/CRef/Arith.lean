import Verif.CRef.Vrfy
import Verif.NTT.Props

/-! # C76: the modular arithmetic of the C code -/

namespace Verif.CRef

open Verif.NTT (mulmod addmod)

theorem and_neg0 : 12289 &&& neg32 0 = 0 := by decide
theorem and_neg1 : 12289 &&& neg32 1 = 12289 := by decide

theorem shift31 (d : ℕ) (h : d < 4294967296) : d >>> 31 = if d < 2147483648 then 0 else 1 := by
  rw [Nat.shiftRight_eq_div_pow]
  split <;> omega

/-- The conditional addition of `q`. -/
theorem cond_add (d : ℕ) (h : d < 4294967296) : add32 d (12289 &&& neg32 (d >>> 31)) = if d < 2147483648 then d else (d + 12289) % 4294967296 := by
  rw [shift31 d h]
  split
  · rw [and_neg0]; unfold add32; omega
  · rw [and_neg1]; rfl

/-- C76: `mq_add` on canonical residues. -/
theorem mqAdd_eq (x y : ℕ) (hx : x < 12289) (hy : y < 12289) : mqAdd x y = (x + y) % 12289 := by
  unfold mqAdd
  dsimp only
  have hd : sub32 (add32 x y) 12289 = if 12289 ≤ x + y then x + y - 12289 else x + y + 4294967296 - 12289 := by
    unfold sub32 add32; split <;> omega
  have hlt : sub32 (add32 x y) 12289 < 4294967296 := by unfold sub32; omega
  rw [cond_add _ hlt, hd]
  split <;> split <;> omega

/-- C76: `mq_sub` on canonical residues. -/
theorem mqSub_eq (x y : ℕ) (hx : x < 12289) (hy : y < 12289) : mqSub x y = (x + (12289 - y)) % 12289 := by
  unfold mqSub
  dsimp only
  have hd : sub32 x y = if y ≤ x then x - y else x + 4294967296 - y := by
    unfold sub32; split <;> omega
  have hlt : sub32 x y < 4294967296 := by unfold sub32; omega
  rw [cond_add _ hlt, hd]
  split <;> split <;> omega

/-- C76: `mq_rshift1` halves a canonical residue. -/
theorem mqRshift1_eq (x : ℕ) (hx : x < 12289) : mqRshift1 x < 12289 ∧ 2 * mqRshift1 x % 12289 = x := by
  unfold mqRshift1
  rw [Nat.and_one_is_mod, Nat.shiftRight_eq_div_pow]
  rcases Nat.mod_two_eq_zero_or_one x with h | h
  · rw [h, and_neg0]; unfold add32
    rw [Nat.mod_eq_of_lt (show x + 0 < 4294967296 by omega), pow_one]; omega
  · rw [h, and_neg1]; unfold add32
    rw [Nat.mod_eq_of_lt (show x + 12289 < 4294967296 by omega), pow_one]; omega

theorem mqMontymul_raw (x y : ℕ) (hx : x < 12289) (hy : y < 12289) : mqMontymul x y < 12289 ∧ mqMontymul x y * 65536 % 12289 = x * y % 12289 := by
  have hb : x * y ≤ 12288 * 12288 := Nat.mul_le_mul (by omega) (by omega)
  unfold mqMontymul
  dsimp only
  have e1 : mul32 x y = x * y := by unfold mul32; omega
  rw [e1]
  obtain ⟨z, hz⟩ : ∃ z, z = x * y := ⟨_, rfl⟩
  rw [← hz] at hb ⊢
  clear hz e1
  have e2 : mul32 z 12287 &&& 0xFFFF = z * 12287 % 65536 := by
    unfold mul32
    have := Nat.and_two_pow_sub_one_eq_mod (z * 12287 % 4294967296) 16
    rw [show 2 ^ 16 - 1 = 0xFFFF from rfl] at this
    rw [this]
    omega
  rw [e2]
  obtain ⟨t, ht⟩ : ∃ t, t = z * 12287 % 65536 := ⟨_, rfl⟩
  rw [← ht]
  have ht' : t < 65536 := by omega
  have e3 : mul32 t 12289 = t * 12289 := by unfold mul32; omega
  have e4 : add32 z (t * 12289) = z + t * 12289 := by unfold add32; omega
  rw [e3, e4, Nat.shiftRight_eq_div_pow]
  have hdiv : (z + t * 12289) % 65536 = 0 := by omega
  obtain ⟨r, hr⟩ : ∃ r, z + t * 12289 = r * 65536 := ⟨(z + t * 12289) / 65536, by omega⟩
  have hr2 : (z + t * 12289) / 2 ^ 16 = r := by omega
  rw [hr2]
  have hrlt : r < 2 * 12289 := by omega
  have hlt : sub32 r 12289 < 4294967296 := by unfold sub32; omega
  rw [cond_add _ hlt]
  have hd : sub32 r 12289 = if 12289 ≤ r then r - 12289 else r + 4294967296 - 12289 := by
    unfold sub32; split <;> omega
  rw [hd]
  by_cases h : 12289 ≤ r
  · rw [if_pos h, if_pos (by omega)]; omega
  · rw [if_neg h, if_neg (by omega), show r + 4294967296 - 12289 + 12289 = r + 4294967296 by omega, Nat.add_mod_right, Nat.mod_eq_of_lt (show r < 4294967296 by omega)]
    omega

theorem mqMontymul_lt (x y : ℕ) (hx : x < 12289) (hy : y < 12289) : mqMontymul x y < 12289 := (mqMontymul_raw x y hx hy).1

/-- C76: `mq_montymul` computes `x*y/R` with `R = 2^16` (`2304 = 1/R`). -/
theorem mqMontymul_eq (x y : ℕ) (hx : x < 12289) (hy : y < 12289) : mqMontymul x y = x * y * 2304 % 12289 := by
  obtain ⟨h1, h2⟩ := mqMontymul_raw x y hx hy
  have e : mqMontymul x y % 12289 = mqMontymul x y * 65536 * 2304 % 12289 := by
    have : mqMontymul x y * 65536 * 2304 = mqMontymul x y + 12289 * (mqMontymul x y * 12287) := by ring
    rw [this, Nat.add_mul_mod_self_left]
  rw [Nat.mod_eq_of_lt h1] at e
  rw [e, Nat.mul_mod, h2, ← Nat.mul_mod]

/-- Multiplication by a table entry `s*R`. -/
theorem mqMontymul_table (x s r : ℕ) (hx : x < 12289) (hr : r = s * 65536 % 12289) : mqMontymul x r = x * s % 12289 := by
  have hrl : r < 12289 := by omega
  rw [mqMontymul_eq x r hx hrl, hr]
  rw [show x * (s * 65536 % 12289) * 2304 = s * 65536 % 12289 * (x * 2304) by ring, Nat.mod_mul_mod]
  rw [show s * 65536 * (x * 2304) = x * (s * 65536 * 2304) by ring]
  have : x * (s * 65536 * 2304) = x * s + 12289 * (x * s * 12287) := by ring
  rw [this, Nat.add_mul_mod_self_left]

end Verif.CRef
