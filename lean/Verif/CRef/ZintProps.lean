import Verif.CRef.ZintScaled
import Verif.CRef.ZintCrt

/-! The big integers of key generation, /repo/falcon/nistfalcon/src/keygen.c 1108-2140: every operation computes what its name says.  See C101 in /verif/properties.jsonl.
`big` and `sbig` (ZintSpec.lean) read a list of 31-bit words as an unsigned and as a two's complement number. -/

namespace Verif.CRef.Kg
open Verif.Ring (negCoeff)

/-- `zint_sub` with `ctl = 1`: the difference modulo `2^(31 len)` and the borrow; with `ctl = 0` the comparison only. -/
theorem C101_sub (a b : List ℕ) (hl : a.length = b.length) (ha : Words a) (hb : Words b) :
    (zintSub a b 0 = (a, if big a < big b then 1 else 0)) ∧
    ((zintSub a b 1).2 = if big a < big b then 1 else 0) ∧ (zintSub a b 1).1.length = a.length ∧ Words (zintSub a b 1).1 ∧
    (big (zintSub a b 1).1 : ℤ) = ((big a : ℤ) - big b) % 2 ^ (31 * a.length) := by
  obtain ⟨a0, c0, e0, l0, w0, k0, z0, -⟩ := zintSub_spec a b hl ha hb 0 (by norm_num)
  obtain ⟨a1, c1, e1, l1, w1, k1, -, s1⟩ := zintSub_spec a b hl ha hb 1 (by norm_num)
  rw [e0, e1, z0 rfl]
  refine ⟨by rw [k0], k1, l1, w1, ?_⟩
  have hlt := big_lt _ w1
  rw [l1] at hlt
  have hs := s1 rfl
  have hp : (2 : ℤ) ^ (31 * a.length) = 2147483648 ^ a.length := by exact_mod_cast pow31 a.length
  rw [hp]
  dsimp only
  have h1 : (big a : ℤ) - big b = big a1 + 2147483648 ^ a.length * (-(c1 : ℤ)) := by
    have : (big a1 : ℤ) + big b = big a + c1 * 2147483648 ^ a.length := by exact_mod_cast hs
    linarith
  rw [h1, Int.add_mul_emod_self_left, Int.emod_eq_of_lt (by positivity) (by exact_mod_cast hlt)]

example : zintSub [5, 1] [7, 0] 1 = ([2147483646, 0], 0) := by decide

/-- `zint_mul_small`: the product with one word, and the word that overflows. -/
theorem C101_mul_small (m : List ℕ) (x : ℕ) (hm : Words m) (hx : x < 2 ^ 31) :
    (zintMulSmall x m 0).1.length = m.length ∧ Words (zintMulSmall x m 0).1 ∧ (zintMulSmall x m 0).2 < 2 ^ 31 ∧
      big (zintMulSmall x m 0).1 + (zintMulSmall x m 0).2 * 2 ^ (31 * m.length) = big m * x := by
  obtain ⟨m', c, e, l, w, h, s⟩ := mulSmall_spec x hx m hm 0 (by norm_num)
  rw [e, pow31]
  exact ⟨l, w, h, s⟩

/-- `zint_add_mul_small`: `x + y·s`, one word longer. -/
theorem C101_add_mul_small (x y : List ℕ) (s : ℕ) (hl : x.length = y.length) (hx : Words x) (hy : Words y) (hs : s < 2 ^ 31) :
    (zintAddMulSmall s x y 0).length = x.length + 1 ∧ Words (zintAddMulSmall s x y 0) ∧ big (zintAddMulSmall s x y 0) = big x + big y * s := by
  have := addMulSmall_spec s hs x y hl hx hy 0 (by norm_num)
  simpa using this

/-- `zint_mod_small_unsigned` and `zint_mod_small_signed` with every prime of the table: the remainder. -/
theorem C101_mod_small (i : ℕ) (hi : i < 521) (d : List ℕ) (hd : Words d) (hl : d.length < 2 ^ 31) :
    zintModSmallUnsigned d primeList[i]! (modpNinv31 primeList[i]!) (modpR2 primeList[i]! (modpNinv31 primeList[i]!)) = big d % primeList[i]! ∧
    (zintModSmallSigned d primeList[i]! (modpNinv31 primeList[i]!) (modpR2 primeList[i]! (modpNinv31 primeList[i]!))
      (modpRx d.length primeList[i]! (modpNinv31 primeList[i]!) (modpR2 primeList[i]! (modpNinv31 primeList[i]!))) : ℤ) = sbig d % (primeList[i]! : ℕ) :=
  ⟨modUnsigned_spec (modulus_table i hi) d hd, modSigned_spec (modulus_table i hi) d hd hl⟩

/-- `zint_norm_zero`: the representative of `x` modulo the odd number `p` that is nearest to zero. -/
theorem C101_norm_zero (x p : List ℕ) (hl : x.length = p.length) (hx : Words x) (hp : Words p) (hlt : big x < big p) (hodd : big p % 2 = 1) :
    (zintNormZero x p).length = x.length ∧ Words (zintNormZero x p) ∧ sbig (zintNormZero x p) ≡ big x [ZMOD big p] ∧ 2 * |sbig (zintNormZero x p)| < big p := by
  obtain ⟨h1, h2, h3⟩ := normZero_spec x p hl hx hp hlt hodd
  refine ⟨h1, h2, ?_, ?_⟩
  · rw [h3]; split
    · rfl
    · rw [Int.modEq_iff_dvd]; exact ⟨1, by ring⟩
  · rw [h3]; split
    · rw [abs_of_nonneg (by omega)]; omega
    · rw [abs_of_nonpos (by omega)]; omega

example : sbig (zintNormZero [5, 0] [7, 0]) = -2 := by decide

/-- `zint_add_scaled_mul_small` and `zint_sub_scaled`: `x + k·y·2^sc` and `x − y·2^sc` with `sc = 31 sch + scl`, modulo the size of `x`, and exactly when the result fits. -/
theorem C101_scaled (x y : List ℕ) (hx : Words x) (hy : Words y) (h0 : y.length ≠ 0) (k : ℤ) (hk : -2 ^ 31 ≤ k ∧ k < 2 ^ 31) (sch scl : ℕ) (hs : scl ≤ 30) :
    ((zintAddScaledMulSmall x y k sch scl).length = x.length ∧ Words (zintAddScaledMulSmall x y k sch scl) ∧
      sbig (zintAddScaledMulSmall x y k sch scl) ≡ sbig x + k * sbig y * 2 ^ (31 * sch + scl) [ZMOD 2 ^ (31 * x.length)] ∧
      (-2 ^ (31 * x.length) ≤ 2 * (sbig x + k * sbig y * 2 ^ (31 * sch + scl)) → 2 * (sbig x + k * sbig y * 2 ^ (31 * sch + scl)) < 2 ^ (31 * x.length) →
        sbig (zintAddScaledMulSmall x y k sch scl) = sbig x + k * sbig y * 2 ^ (31 * sch + scl))) ∧
    ((zintSubScaled x y sch scl).length = x.length ∧ Words (zintSubScaled x y sch scl) ∧
      sbig (zintSubScaled x y sch scl) ≡ sbig x - sbig y * 2 ^ (31 * sch + scl) [ZMOD 2 ^ (31 * x.length)] ∧
      (-2 ^ (31 * x.length) ≤ 2 * (sbig x - sbig y * 2 ^ (31 * sch + scl)) → 2 * (sbig x - sbig y * 2 ^ (31 * sch + scl)) < 2 ^ (31 * x.length) →
        sbig (zintSubScaled x y sch scl) = sbig x - sbig y * 2 ^ (31 * sch + scl))) := by
  have hp : (2 : ℤ) ^ (31 * x.length) = 2147483648 ^ x.length := by exact_mod_cast pow31 x.length
  rw [hp]
  norm_num at hk
  constructor
  · obtain ⟨l, w, m⟩ := addScaled_mod x y hx hy h0 k hk sch scl hs
    have m' : (big (zintAddScaledMulSmall x y k sch scl) : ℤ) ≡ sbig x + k * sbig y * 2 ^ (31 * sch + scl) [ZMOD 2147483648 ^ x.length] := m.trans (Int.ModEq.add_right _ (sbig_mod x).symm)
    have sm := sbig_mod (zintAddScaledMulSmall x y k sch scl)
    rw [l] at sm
    exact ⟨l, w, sm.trans m', fun b1 b2 => sbig_unique _ w _ (by rw [l]; exact b1) (by rw [l]; exact b2) (by rw [l]; exact m')⟩
  · obtain ⟨l, w, m⟩ := subScaled_mod x y hx hy h0 sch scl hs
    have m' : (big (zintSubScaled x y sch scl) : ℤ) ≡ sbig x - sbig y * 2 ^ (31 * sch + scl) [ZMOD 2147483648 ^ x.length] :=
      (m.trans (Int.ModEq.add_right _ (sbig_mod x).symm)).trans (modEq_of_eq (by ring))
    have sm := sbig_mod (zintSubScaled x y sch scl)
    rw [l] at sm
    exact ⟨l, w, sm.trans m', fun b1 b2 => sbig_unique _ w _ (by rw [l]; exact b1) (by rw [l]; exact b2) (by rw [l]; exact m')⟩

example : sbig (zintAddScaledMulSmall [5, 0, 0] [2147483647] (-3) 1 2) = 5 + -3 * -1 * 2 ^ 33 := by decide

/-- `poly_sub_scaled`: coefficient by coefficient, `F − k·f·2^sc` in `Z[x]/(x^n+1)`, modulo the size of the coefficients of `F`, and exactly where the result fits. -/
theorem C101_poly_sub_scaled (logn len flen : ℕ) (hf0 : flen ≠ 0) (F f : List (List ℕ)) (hF : Rows (2 ^ logn) len F) (hf : Rows (2 ^ logn) flen f) (sch scl : ℕ) (hs : scl ≤ 30)
    (k : List ℤ) (hkl : k.length = 2 ^ logn) (hk : ∀ x ∈ k, -2 ^ 31 < x ∧ x < 2 ^ 31) :
    Rows (2 ^ logn) len (polySubScaled F f k sch scl logn) ∧ ∀ i < 2 ^ logn,
      sbig (polySubScaled F f k sch scl logn)[i]! ≡ sbig F[i]! - negCoeff (2 ^ logn) k (f.map sbig) i * 2 ^ (31 * sch + scl) [ZMOD 2 ^ (31 * len)] ∧
      (-2 ^ (31 * len) ≤ 2 * (sbig F[i]! - negCoeff (2 ^ logn) k (f.map sbig) i * 2 ^ (31 * sch + scl)) →
        2 * (sbig F[i]! - negCoeff (2 ^ logn) k (f.map sbig) i * 2 ^ (31 * sch + scl)) < 2 ^ (31 * len) →
        sbig (polySubScaled F f k sch scl logn)[i]! = sbig F[i]! - negCoeff (2 ^ logn) k (f.map sbig) i * 2 ^ (31 * sch + scl)) := by
  have hp : (2 : ℤ) ^ (31 * len) = 2147483648 ^ len := by exact_mod_cast pow31 len
  rw [hp]
  norm_num at hk
  obtain ⟨r, m⟩ := polySubScaled_mod logn len flen hf0 F f hF hf sch scl hs k hkl hk
  refine ⟨r, fun i hi => ?_⟩
  obtain ⟨l, w⟩ := r.2 i hi
  have lF := (hF.2 i hi).1
  have s1 := sbig_mod (polySubScaled F f k sch scl logn)[i]!
  have s2 := sbig_mod F[i]!
  rw [l] at s1
  rw [lF] at s2
  have m' := (m i hi).trans (Int.ModEq.sub_right _ s2.symm)
  exact ⟨s1.trans m', fun b1 b2 => sbig_unique _ w _ (by rw [l]; exact b1) (by rw [l]; exact b2) (by rw [l]; exact m')⟩

/-- A concrete case: `F = (100, 200)`, `f = (3, −1)`, `k = (2, 5)`, no scaling: `k·f = (11, 13)`. -/
example : (polySubScaled [[100], [200]] [[3], [2147483647]] [2, 5] 0 0 1).map sbig = [89, 187] := by decide

end Verif.CRef.Kg
