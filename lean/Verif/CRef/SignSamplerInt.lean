import Verif.CRef.SignSampler
import Verif.CRef.FprBits
import Verif.Sampler.Exp

/-! # C98, first part: the integer computations of the C sampler -/

namespace Verif.CRef.SignSampler
open Verif.CRef Verif.CRef.Fpr

/-! ## gaussian0_sampler -/

theorem borrow_bit (v w c : BitVec 32) (b : Bool) (hc : c = BitVec.ofNat 32 b.toNat) (hv : v.toNat < 2 ^ 24) (hw : w.toNat < 2 ^ 24) :
    ∃ d : Bool, (v - w - c) >>> 31 = BitVec.ofNat 32 d.toNat ∧ (v.toNat < w.toNat + b.toNat ↔ d.toNat = 1) := by
  have hb : b.toNat ≤ 1 := Bool.toNat_le b
  refine ⟨decide (v.toNat < w.toNat + b.toNat), ?_, by simp⟩
  apply BitVec.eq_of_toNat_eq
  rw [BitVec.toNat_ushiftRight, Nat.shiftRight_eq_div_pow, BitVec.toNat_sub, BitVec.toNat_sub, hc, BitVec.toNat_ofNat, BitVec.toNat_ofNat,
    Nat.mod_eq_of_lt (show b.toNat < 2 ^ 32 by omega)]
  by_cases h : v.toNat < w.toNat + b.toNat
  · rw [decide_eq_true h]; simp only [Bool.toNat_true]; omega
  · rw [decide_eq_false h]; simp only [Bool.toNat_false]; omega

theorem borrow_spec (v0 v1 v2 w0 w1 w2 : BitVec 32) (h0 : v0.toNat < 2 ^ 24) (h1 : v1.toNat < 2 ^ 24) (h2 : v2.toNat < 2 ^ 24) (g0 : w0.toNat < 2 ^ 24) (g1 : w1.toNat < 2 ^ 24) (g2 : w2.toNat < 2 ^ 24) :
    (borrow v0 v1 v2 w0 w1 w2).toNat = if v0.toNat + 2 ^ 24 * v1.toNat + 2 ^ 48 * v2.toNat < w0.toNat + 2 ^ 24 * w1.toNat + 2 ^ 48 * w2.toNat then 1 else 0 := by
  unfold borrow
  simp only
  obtain ⟨b0, e0, f0⟩ := borrow_bit v0 w0 0 false rfl h0 g0
  rw [show v0 - w0 - 0 = v0 - w0 by simp] at e0
  obtain ⟨b1, e1, f1⟩ := borrow_bit v1 w1 _ b0 rfl h1 g1
  obtain ⟨b2, e2, f2⟩ := borrow_bit v2 w2 _ b1 rfl h2 g2
  rw [e0, e1, e2, BitVec.toNat_ofNat]
  rw [Bool.toNat_false] at f0
  have := Bool.toNat_le b0
  have := Bool.toNat_le b1
  have := Bool.toNat_le b2
  split <;> omega

theorem table : Sampler.rcdt = (List.range 18).map (fun k => (dist.getD (3 * k + 2) 0).toNat + 2 ^ 24 * (dist.getD (3 * k + 1) 0).toNat + 2 ^ 48 * (dist.getD (3 * k) 0).toNat) := by decide

theorem table_small : ∀ k < 18, (dist.getD (3 * k + 2) 0).toNat < 2 ^ 24 ∧ (dist.getD (3 * k + 1) 0).toNat < 2 ^ 24 ∧ (dist.getD (3 * k) 0).toNat < 2 ^ 24 := by decide

/-- **C98**: the base sampler of the C code, on a 72-bit draw, is the one of `samplerz.py` on the same 72 bits. -/
theorem C98_gaussian0 (lo hi : ℕ) (h1 : lo < 2 ^ 64) (h2 : hi < 256) : gaussian0Of lo hi = Sampler.baseOf (lo + 2 ^ 64 * hi) := by
  unfold gaussian0Of Sampler.baseOf
  simp only
  rw [table, List.foldl_map]
  obtain ⟨v0, hv0⟩ : ∃ v, (BitVec.ofNat 64 lo).setWidth 32 &&& 0xFFFFFF#32 = v := ⟨_, rfl⟩
  obtain ⟨v1, hv1⟩ : ∃ v, (BitVec.ofNat 64 lo >>> 24).setWidth 32 &&& 0xFFFFFF#32 = v := ⟨_, rfl⟩
  obtain ⟨v2, hv2⟩ : ∃ v, (BitVec.ofNat 64 lo >>> 48).setWidth 32 ||| BitVec.ofNat 32 hi <<< 16 = v := ⟨_, rfl⟩
  rw [hv0, hv1, hv2]
  have e0 : v0.toNat = lo % 2 ^ 24 := by
    rw [← hv0, BitVec.toNat_and, show (0xFFFFFF#32).toNat = 2 ^ 24 - 1 by rfl, and_mask, BitVec.toNat_setWidth, BitVec.toNat_ofNat]; omega
  have e1 : v1.toNat = lo / 2 ^ 24 % 2 ^ 24 := by
    rw [← hv1, BitVec.toNat_and, show (0xFFFFFF#32).toNat = 2 ^ 24 - 1 by rfl, and_mask, BitVec.toNat_setWidth, toNat_shr, BitVec.toNat_ofNat]; omega
  have e2 : v2.toNat = lo / 2 ^ 48 + 2 ^ 16 * hi := by
    rw [← hv2, BitVec.toNat_or, BitVec.toNat_setWidth, toNat_shr, BitVec.toNat_ofNat, BitVec.toNat_shiftLeft, BitVec.toNat_ofNat, Nat.shiftLeft_eq, Nat.or_comm,
      or_add _ _ 16 (by omega) (by omega)]
    omega
  have hu : v0.toNat + 2 ^ 24 * v1.toNat + 2 ^ 48 * v2.toNat = lo + 2 ^ 64 * hi := by rw [e0, e1, e2]; omega
  have hf : ∀ l : List ℕ, (∀ k ∈ l, k < 18) → ∀ z, l.foldl (fun z k => z + (borrow v0 v1 v2 (dist.getD (3 * k + 2) 0) (dist.getD (3 * k + 1) 0) (dist.getD (3 * k) 0)).toNat) z =
      l.foldl (fun z k => z + if lo + 2 ^ 64 * hi < (dist.getD (3 * k + 2) 0).toNat + 2 ^ 24 * (dist.getD (3 * k + 1) 0).toNat + 2 ^ 48 * (dist.getD (3 * k) 0).toNat then 1 else 0) z := by
    intro l
    induction l with
    | nil => intro _ z; rfl
    | cons k l ih =>
      intro h z
      obtain ⟨t2, t1, t0⟩ := table_small k (h k (by simp))
      rw [List.foldl_cons, List.foldl_cons, ih (fun k hk => h k (by simp [hk])), borrow_spec _ _ _ _ _ _ (by omega) (by omega) (by omega) t2 t1 t0, hu]
  exact hf _ (fun k hk => List.mem_range.1 hk) 0

example : gaussian0Of 0 0 = 18 ∧ gaussian0Of (2 ^ 64 - 1) 255 = 0 ∧ gaussian0Of 0 100 = 1 := by decide

/-! ## The product -/

theorem toNat_mul32 (a b : BitVec 32) : (a.setWidth 64 * b.setWidth 64 : W).toNat = a.toNat * b.toNat := by
  have ha := a.isLt
  have hb := b.isLt
  rw [BitVec.toNat_mul, BitVec.toNat_setWidth, BitVec.toNat_setWidth, Nat.mod_eq_of_lt (show a.toNat < 2 ^ 64 by omega), Nat.mod_eq_of_lt (show b.toNat < 2 ^ 64 by omega), Nat.mod_eq_of_lt]
  calc a.toNat * b.toNat < 2 ^ 32 * 2 ^ 32 := Nat.mul_lt_mul'' ha hb
    _ = 2 ^ 64 := by norm_num

/-- The 32-bit halves give the upper 64 bits of the product. -/
theorem mulHi_spec (z y : W) : (mulHi z y).toNat = z.toNat * y.toNat / 2 ^ 64 := by
  unfold mulHi
  simp only
  obtain ⟨z0, hz0⟩ : ∃ v : BitVec 32, z.setWidth 32 = v := ⟨_, rfl⟩
  obtain ⟨z1, hz1⟩ : ∃ v : BitVec 32, (z >>> 32).setWidth 32 = v := ⟨_, rfl⟩
  obtain ⟨y0, hy0⟩ : ∃ v : BitVec 32, y.setWidth 32 = v := ⟨_, rfl⟩
  obtain ⟨y1, hy1⟩ : ∃ v : BitVec 32, (y >>> 32).setWidth 32 = v := ⟨_, rfl⟩
  rw [hz0, hz1, hy0, hy1]
  have hz := z.isLt
  have hy := y.isLt
  have ez : z.toNat = z0.toNat + 2 ^ 32 * z1.toNat := by
    rw [← hz0, ← hz1, BitVec.toNat_setWidth, BitVec.toNat_setWidth, toNat_shr]; omega
  have ey : y.toNat = y0.toNat + 2 ^ 32 * y1.toNat := by
    rw [← hy0, ← hy1, BitVec.toNat_setWidth, BitVec.toNat_setWidth, toNat_shr]; omega
  rw [ez, ey]
  have b0 := z0.isLt
  have b1 := z1.isLt
  have c0 := y0.isLt
  have c1 := y1.isLt
  have bnd : ∀ a b : BitVec 32, a.toNat * b.toNat ≤ 18446744065119617025 := fun a b => by
    calc a.toNat * b.toNat ≤ (2 ^ 32 - 1) * (2 ^ 32 - 1) := Nat.mul_le_mul (by have := a.isLt; omega) (by have := b.isLt; omega)
      _ = 18446744065119617025 := by norm_num
  have hexp : (z0.toNat + 2 ^ 32 * z1.toNat) * (y0.toNat + 2 ^ 32 * y1.toNat) = z0.toNat * y0.toNat + 2 ^ 32 * (z0.toNat * y1.toNat) + 2 ^ 32 * (z1.toNat * y0.toNat) + 2 ^ 64 * (z1.toNat * y1.toNat) := by ring
  rw [hexp]
  have n00 := bnd z0 y0
  have n01 := bnd z0 y1
  have n10 := bnd z1 y0
  have n11 := bnd z1 y1
  have m00 := toNat_mul32 z0 y0
  have m01 := toNat_mul32 z0 y1
  have m10 := toNat_mul32 z1 y0
  have m11 := toNat_mul32 z1 y1
  generalize z0.toNat * y0.toNat = p00 at *
  generalize z0.toNat * y1.toNat = p01 at *
  generalize z1.toNat * y0.toNat = p10 at *
  generalize z1.toNat * y1.toNat = p11 at *
  generalize (z0.setWidth 64 * y0.setWidth 64 : W) = q00 at *
  generalize (z0.setWidth 64 * y1.setWidth 64 : W) = q01 at *
  generalize (z1.setWidth 64 * y0.setWidth 64 : W) = q10 at *
  generalize (z1.setWidth 64 * y1.setWidth 64 : W) = q11 at *
  have ea : (q01 + q00 >>> 32).toNat = p01 + p00 / 2 ^ 32 := by
    rw [BitVec.toNat_add, toNat_shr, m01, m00]; omega
  generalize q01 + q00 >>> 32 = a at *
  have el : (((a.setWidth 32 : BitVec 32).setWidth 64 + (q10.setWidth 32 : BitVec 32).setWidth 64 : W) >>> 32).toNat = (a.toNat % 2 ^ 32 + q10.toNat % 2 ^ 32) / 2 ^ 32 := by
    rw [toNat_shr, BitVec.toNat_add, BitVec.toNat_setWidth, BitVec.toNat_setWidth, BitVec.toNat_setWidth, BitVec.toNat_setWidth]; omega
  rw [BitVec.toNat_add, BitVec.toNat_add, BitVec.toNat_add, el, toNat_shr, toNat_shr, ea, m10, m11]
  omega

example : (mulHi 0xFFFFFFFFFFFFFFFF#64 0xFFFFFFFFFFFFFFFF#64).toNat = 2 ^ 64 - 2 := by decide

/-! ## The polynomial -/

theorem coeffs : Sampler.expC = expmC.map (fun c => (c.toNat : ℤ)) := by decide

theorem coeffs_head : Sampler.expC.headD 0 = ((expmC.headD 0).toNat : ℤ) := by decide
theorem coeffs_tail : Sampler.expC.tail = expmC.tail.map (fun c => (c.toNat : ℤ)) := by decide
theorem coeffs_sorted : List.IsChain (fun a b : W => a.toNat ≤ b.toNat) (expmC.headD 0 :: expmC.tail) := by decide +kernel

/-- The loop of `fpr_expm_p63` on `z = 2t` is the loop of `approxexp` on `t`. -/
theorem expmLoop_spec (z : W) (t : ℕ) (hz : z.toNat = 2 * t) : ((expmLoop z).toNat : ℤ) = Sampler.horner t := by
  unfold expmLoop Sampler.horner
  have ht : t < 2 ^ 63 := by have := z.isLt; omega
  have key : ∀ (l : List W) (c y : W), List.IsChain (fun a b : W => a.toNat ≤ b.toNat) (c :: l) → y.toNat ≤ c.toNat →
      ((l.foldl (fun y c => c - mulHi z y) y).toNat : ℤ) = (l.map (fun c => (c.toNat : ℤ))).foldl (fun y elt => elt - (((t : ℤ) * y) >>> 63)) (y.toNat : ℤ) := by
    intro l
    induction l with
    | nil => intro c y _ _; rfl
    | cons d l ih =>
      intro c y hs hy
      rw [List.isChain_cons_cons] at hs
      rw [List.map_cons, List.foldl_cons, List.foldl_cons]
      have hm : (mulHi z y).toNat = t * y.toNat / 2 ^ 63 := by
        rw [mulHi_spec, hz, show 2 * t * y.toNat = 2 * (t * y.toNat) by ring]; omega
      have hle : t * y.toNat / 2 ^ 63 ≤ y.toNat := by
        calc t * y.toNat / 2 ^ 63 ≤ 2 ^ 63 * y.toNat / 2 ^ 63 := Nat.div_le_div_right (Nat.mul_le_mul_right _ ht.le)
          _ = y.toNat := by omega
      have hd := d.isLt
      have hdy := hs.1
      have e : (d - mulHi z y).toNat = d.toNat - t * y.toNat / 2 ^ 63 := by
        rw [BitVec.toNat_sub, hm]; omega
      rw [ih d (d - mulHi z y) hs.2 (by rw [e]; omega), e]
      congr 1
      rw [Sampler.shift63_int]
      rw [Nat.cast_sub (by omega)]
      push_cast
      rfl
  rw [coeffs_head, coeffs_tail]
  exact key expmC.tail (expmC.headD 0) (expmC.headD 0) coeffs_sorted le_rfl

end Verif.CRef.SignSampler
