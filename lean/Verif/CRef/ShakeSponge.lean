import Verif.CRef.ShakePerm
import Verif.CRef.KeccakSponge
import Verif.Keccak.Props

/-! # `shake.c`: absorbing and squeezing -/

namespace Verif.CRef.Shake

open Verif.Keccak (Lane xorAt absorbByte permute)
open Verif.Keccak.Spec (bytesToLanes F lanesToBytes)

/-! ## Bytes of a lane -/

theorem le_sum_bits (f : Nat → Nat) (n : Nat) (hf : ∀ k, f k < 256) :
    (List.range n).foldl (fun a k => a + f k * 256 ^ k) 0 < 256 ^ n ∧
    ∀ j, ((List.range n).foldl (fun a k => a + f k * 256 ^ k) 0).testBit j = if j < 8 * n then (f (j / 8)).testBit (j % 8) else false := by
  induction n with
  | zero => refine ⟨by simp, fun j => ?_⟩; simp
  | succ n ih =>
    rw [List.range_succ, List.foldl_append]
    simp only [List.foldl_cons, List.foldl_nil]
    obtain ⟨h1, h2⟩ := ih
    generalize (List.range n).foldl (fun a k => a + f k * 256 ^ k) 0 = s at h1 h2
    constructor
    · have := hf n
      rw [Nat.pow_succ]
      have : f n * 256 ^ n ≤ 255 * 256 ^ n := Nat.mul_le_mul_right _ (by omega)
      omega
    · intro j
      rw [Nat.add_comm, Nat.mul_comm (f n), show (256 : Nat) ^ n = 2 ^ (8 * n) by rw [Nat.pow_mul]] at *
      rw [Nat.testBit_two_pow_mul_add _ h1, h2]
      by_cases hj : j < 8 * n
      · rw [if_pos hj, if_pos hj, if_pos (by omega)]
      · rw [if_neg hj]
        by_cases hj2 : j < 8 * (n + 1)
        · rw [if_pos hj2, show j / 8 = n by omega, show j - 8 * n = j % 8 by omega]
        · rw [if_neg hj2]
          apply Nat.testBit_lt_two_pow
          calc f n < 256 := hf n
            _ = 2 ^ 8 := rfl
            _ ≤ 2 ^ (j - 8 * n) := Nat.pow_le_pow_right (by decide) (by omega)

theorem lane_bit (b : Bytes) (hb : ∀ k, b.getD k 0 < 256) (i j : Nat) (hi : i < 25) (hj : j < 64) :
    (lane (bytesToLanes b) i).getLsbD j = (b.getD (8 * i + j / 8) 0).testBit (j % 8) := by
  rw [lane_bytes b i hi, BitVec.getLsbD_ofNat, (le_sum_bits (fun k => b.getD (8 * i + k) 0) 8 (fun k => hb _)).2 j, if_pos (by omega)]
  simp [hj]

theorem lane_ext (a b : List Lane) (ha : a.length = 25) (hb : b.length = 25) (h : ∀ i < 25, lane a i = lane b i) : a = b := by
  apply List.ext_getElem (by rw [ha, hb])
  intro i h1 h2
  have := h i (by omega)
  unfold lane at this
  rwa [List.getD_eq_getElem?_getD, List.getD_eq_getElem?_getD, List.getElem?_eq_getElem h1, List.getElem?_eq_getElem h2] at this

theorem lane_zip (s t : List Lane) (hs : s.length = 25) (ht : t.length = 25) (i : Nat) (hi : i < 25) :
    lane (List.zipWith (· ^^^ ·) s t) i = lane s i ^^^ lane t i := by
  unfold lane
  simp only [List.getD_eq_getElem?_getD, List.getElem?_zipWith, List.getElem?_eq_getElem (show i < s.length by omega), List.getElem?_eq_getElem (show i < t.length by omega)]
  rfl

theorem lane_set (A : List Lane) (hA : A.length = 25) (v i : Nat) (x : Lane) (hi : i < 25) : lane (A.set v x) i = if v = i then x else lane A i := by
  unfold lane
  rw [List.getD_eq_getElem?_getD, List.getElem?_set]
  by_cases h : v = i
  · simp [h, hA, hi]
  · simp [h]

theorem xorByte_inject (s : List Lane) (b : Bytes) (v x : Nat) (hs : s.length = 25) (hb : ∀ k, b.getD k 0 < 256) (hl : b.length = 200) (hv : v < 200) (hx : x < 256) :
    xorByte (List.zipWith (· ^^^ ·) s (bytesToLanes b)) v x = List.zipWith (· ^^^ ·) s (bytesToLanes (b.modify v (· ^^^ x))) := by
  have hz : (List.zipWith (· ^^^ ·) s (bytesToLanes b)).length = 25 := by rw [List.length_zipWith, hs, bytesToLanes_length]; rfl
  have hz' : (List.zipWith (· ^^^ ·) s (bytesToLanes (b.modify v (· ^^^ x)))).length = 25 := by rw [List.length_zipWith, hs, bytesToLanes_length]; rfl
  have hb' : ∀ k, (b.modify v (· ^^^ x)).getD k 0 < 256 := by
    intro k
    rw [Keccak.getD_modify _ _ _ _ (by omega)]
    split
    · exact Nat.xor_lt_two_pow (n := 8) (hb k) hx
    · exact hb k
  have e3 : v >>> 3 = v / 8 := Nat.shiftRight_eq_div_pow v 3
  have e7 : v &&& 7 = v % 8 := Nat.and_two_pow_sub_one_eq_mod v 3
  apply lane_ext _ _ (by unfold xorByte; rw [List.length_set, hz]) hz'
  intro i hi
  unfold xorByte
  rw [lane_set _ hz _ _ _ hi, lane_zip _ _ hs (bytesToLanes_length _) _ hi, lane_zip _ _ hs (bytesToLanes_length _) _ hi, e3, e7, Nat.shiftLeft_eq]
  by_cases hvi : v / 8 = i
  · rw [if_pos hvi, lane_zip _ _ hs (bytesToLanes_length _) _ (by omega), hvi, BitVec.xor_assoc]
    congr 1
    apply BitVec.eq_of_getLsbD_eq
    intro j hj
    rw [BitVec.getLsbD_xor, lane_bit _ hb _ _ hi hj, lane_bit _ hb' _ _ hi hj, Keccak.getD_modify _ _ _ _ (by omega), BitVec.getLsbD_shiftLeft, BitVec.getLsbD_ofNat]
    by_cases hk : 8 * i + j / 8 = v
    · rw [if_pos hk, Nat.testBit_xor, show j - v % 8 * 2 ^ 3 = j % 8 by omega]
      congr 1
      simp only [hj, decide_true, Bool.true_and, show ¬ j < v % 8 * 2 ^ 3 by omega, decide_false, Bool.not_false, show j % 8 < 64 by omega]
    · rw [if_neg hk]
      by_cases hlt : j < v % 8 * 2 ^ 3
      · simp [hlt]
      · have : x.testBit (j - v % 8 * 2 ^ 3) = false := by
          apply Nat.testBit_lt_two_pow
          calc x < 2 ^ 8 := hx
            _ ≤ 2 ^ (j - v % 8 * 2 ^ 3) := Nat.pow_le_pow_right (by decide) (by omega)
        simp [this]
  · rw [if_neg hvi]
    congr 1
    apply BitVec.eq_of_getLsbD_eq
    intro j hj
    rw [lane_bit _ hb _ _ hi hj, lane_bit _ hb' _ _ hi hj, Keccak.getD_modify _ _ _ _ (by omega), if_neg (by omega)]

/-! ## Simulation: `A` holds the state with the pending bytes already added in -/

structure Sim (c : Ctx) (k : Keccak.Ctx) : Prop where
  words : c.A = List.zipWith (· ^^^ ·) k.state (bytesToLanes k.buf)
  pos : c.dptr = k.i
  small : k.i < 136
  slen : k.state.length = 25
  blen : k.buf.length = 200
  byte : ∀ j, k.buf.getD j 0 < 256

theorem sim_init : Sim init Keccak.Ctx.new where
  words := by
    show List.replicate 25 0#64 = List.zipWith _ (List.replicate 25 0#64) (bytesToLanes (List.replicate 200 0))
    rw [Keccak.bytesToLanes_zero, Keccak.zipWith_xor_zero _ 25 List.length_replicate]
  pos := rfl
  small := by show 0 < 136; omega
  slen := List.length_replicate
  blen := List.length_replicate
  byte j := by
    show (List.replicate 200 0).getD j 0 < 256
    rw [Keccak.getD_replicate_zero]; decide

theorem xorBytes_inject (s : List Lane) (d : Bytes) (b : Bytes) (p : Nat) (hs : s.length = 25) (hb : ∀ k, b.getD k 0 < 256) (hl : b.length = 200)
    (hd : IsBytes d) (hv : p + d.length ≤ 200) :
    xorBytes (List.zipWith (· ^^^ ·) s (bytesToLanes b)) p d = List.zipWith (· ^^^ ·) s (bytesToLanes (xorAt b p d)) ∧
      ∀ k, (xorAt b p d).getD k 0 < 256 := by
  have key : ∀ n ≤ d.length, (List.range n).foldl (fun A u => xorByte A (u + p) (d.getD u 0)) (List.zipWith (· ^^^ ·) s (bytesToLanes b)) =
      List.zipWith (· ^^^ ·) s (bytesToLanes (xorAt b p (d.take n))) ∧ ∀ k, (xorAt b p (d.take n)).getD k 0 < 256 := by
    intro n
    induction n with
    | zero => intro _; exact ⟨rfl, hb⟩
    | succ n ih =>
      intro hn
      obtain ⟨i1, i2⟩ := ih (by omega)
      have hdn : d.getD n 0 < 256 := by
        rw [List.getD_eq_getElem?_getD, List.getElem?_eq_getElem (show n < d.length by omega)]
        exact hd _ (List.getElem_mem _)
      have et : d.take (n + 1) = d.take n ++ [d.getD n 0] := by
        rw [List.take_add_one, List.getElem?_eq_getElem (show n < d.length by omega), List.getD_eq_getElem?_getD, List.getElem?_eq_getElem (show n < d.length by omega)]
        rfl
      have ex : xorAt b p (d.take (n + 1)) = (xorAt b p (d.take n)).modify (n + p) (· ^^^ d.getD n 0) := by
        rw [et, Keccak.xorAt_append, List.length_take, Nat.min_eq_left (by omega), Nat.add_comm p n]
        rfl
      have hxl : (xorAt b p (d.take n)).length = 200 := by rw [Keccak.xorAt_length, hl]
      rw [ex]
      constructor
      · rw [List.range_succ, List.foldl_append, i1]
        simp only [List.foldl_cons, List.foldl_nil]
        exact xorByte_inject _ _ _ _ hs i2 hxl (by omega) hdn
      · intro k
        rw [Keccak.getD_modify _ _ _ _ (by omega)]
        split
        · exact Nat.xor_lt_two_pow (n := 8) (i2 k) hdn
        · exact i2 k
  have := key d.length (Nat.le_refl _)
  rw [List.take_length] at this
  exact this

theorem permute_sim (s : List Lane) (b : Bytes) (i : Nat) (hs : s.length = 25) :
    Sim ⟨processBlock (List.zipWith (· ^^^ ·) s (bytesToLanes b)), 0⟩ (permute F ⟨s, b, i⟩) where
  words := by
    have hz : (List.zipWith (· ^^^ ·) s (bytesToLanes b)).length = 25 := by rw [List.length_zipWith, hs, bytesToLanes_length]; rfl
    unfold permute
    simp only []
    rw [Keccak.bytesToLanes_zero, Keccak.zipWith_xor_zero _ 25 (F_length _), processBlock_eq _ hz]
  pos := rfl
  small := by show 0 < 136; omega
  slen := F_length _
  blen := List.length_replicate
  byte j := by
    show (List.replicate 200 0).getD j 0 < 256
    rw [Keccak.getD_replicate_zero]; decide

theorem injectLoop_sim (fuel : Nat) (c : Ctx) (k : Keccak.Ctx) (d : Bytes) (hs : Sim c k) (hd : IsBytes d) :
    Sim (injectLoop fuel c d) (Keccak.absorbLoop F 136 fuel k d) := by
  induction fuel generalizing c k d with
  | zero => exact hs
  | succ fuel ih =>
    unfold injectLoop Keccak.absorbLoop
    by_cases h0 : d.length = 0
    · rw [if_neg (by omega), if_pos h0]; exact hs
    · rw [if_pos (by omega), if_neg h0]
      have hw : (if 136 - c.dptr > d.length then d.length else 136 - c.dptr) = min (136 - k.i) d.length := by
        rw [hs.pos]; split <;> omega
      have hsm := hs.small
      have hlt : (d.take (min (136 - k.i) d.length)).length = min (136 - k.i) d.length := by rw [List.length_take]; omega
      have hdt : IsBytes (d.take (min (136 - k.i) d.length)) := fun x hx => hd x (List.mem_of_mem_take hx)
      obtain ⟨x1, x2⟩ := xorBytes_inject k.state (d.take (min (136 - k.i) d.length)) k.buf k.i hs.slen hs.byte hs.blen hdt (by omega)
      dsimp only
      rw [hw, hs.words, hs.pos, x1]
      refine ih _ _ _ ?_ (fun x hx => hd x (List.mem_of_mem_drop hx))
      by_cases hc : k.i + min (136 - k.i) d.length = 136
      · rw [if_pos hc, if_pos hc]
        exact permute_sim _ _ _ hs.slen
      · rw [if_neg hc, if_neg hc]
        exact ⟨rfl, rfl, by show k.i + min (136 - k.i) d.length < 136; omega, hs.slen, by show (xorAt _ _ _).length = _; rw [Keccak.xorAt_length, hs.blen], x2⟩

theorem inject_sim (c : Ctx) (k : Keccak.Ctx) (d : Bytes) (hs : Sim c k) (hd : IsBytes d) : Sim (inject c d) (Keccak.absorb F 136 k d) :=
  injectLoop_sim _ _ _ _ hs hd

/-! ## Flip and extract -/

/-- `dptr` and `A` after `k` bytes have been taken from the state `S`: at a block boundary the permutation is delayed to the next call. -/
inductive At (S : List Lane) (k : Nat) (c : Ctx) : Prop
  | inside (h : c.dptr = k % 136) (w : c.A = (k / 136).repeat F S)
  | edge (h : c.dptr = 136) (h0 : k % 136 = 0) (w : F c.A = (k / 136).repeat F S) (l : c.A.length = 25)

theorem flip_at (c : Ctx) (k : Keccak.Ctx) (hs : Sim c k) : At (Keccak.pad F 136 0x1f k).state 0 (flip c) := by
  have hsm := hs.small
  have e : (flip c).A = List.zipWith (· ^^^ ·) k.state (bytesToLanes ((k.buf.modify k.i (· ^^^ 0x1f)).modify 135 (· ^^^ 0x80))) := by
    have hb' : ∀ j, (k.buf.modify k.i (· ^^^ 0x1f)).getD j 0 < 256 := by
      intro j
      have hbl := hs.blen
      rw [Keccak.getD_modify _ _ _ _ (by omega)]
      split
      · exact Nat.xor_lt_two_pow (n := 8) (hs.byte j) (by decide)
      · exact hs.byte j
    have hl' : (k.buf.modify k.i (· ^^^ 0x1f)).length = 200 := by rw [List.length_modify, hs.blen]
    have h1 := xorByte_inject k.state k.buf k.i 0x1f hs.slen hs.byte hs.blen (by omega) (by decide)
    have h2 := xorByte_inject k.state _ 135 0x80 hs.slen hb' hl' (by omega) (by decide)
    rw [← h2, ← h1, ← hs.words, ← hs.pos]
    rfl
  refine .edge rfl rfl ?_ ?_
  · rw [e]; rfl
  · rw [e, List.length_zipWith, hs.slen, bytesToLanes_length]; rfl

theorem outByte_eq (A : List Lane) (hA : A.length = 25) (p : Nat) (hp : p < 200) : outByte A p = (lanesToBytes A).getD p 0 := by
  have e3 : p >>> 3 = p / 8 := Nat.shiftRight_eq_div_pow p 3
  have e7 : p &&& 7 = p % 8 := Nat.and_two_pow_sub_one_eq_mod p 3
  rw [Keccak.lanesToBytes_getD _ _ (by omega)]
  unfold outByte
  rw [e3, e7, BitVec.toNat_ushiftRight, Nat.shiftRight_eq_div_pow, Nat.shiftLeft_eq, Nat.mul_comm (p % 8), Nat.pow_mul]
  congr 2
  unfold lane
  rw [List.getD_eq_getElem?_getD, List.getD_eq_getElem?_getD, List.getElem?_map, List.getElem?_eq_getElem (show p / 8 < A.length by omega)]
  rfl

/-- Byte `k` of the squeezed state. -/
def sqByte (S : List Lane) (k : Nat) : Nat := (lanesToBytes ((k / 136).repeat F S)).getD (k % 136) 0

theorem extractLoop_ok (S : List Lane) (hS : S.length = 25) (fuel k n : Nat) (c : Ctx) (out : Bytes) (hf : n ≤ fuel) (hc : At S k c) :
    ∃ c', extractLoop fuel c n out = (c', out ++ (List.range n).map fun j => sqByte S (k + j)) ∧ At S (k + n) c' := by
  induction fuel generalizing k n c out with
  | zero =>
    rw [show n = 0 by omega]
    exact ⟨c, by simp [extractLoop], hc⟩
  | succ fuel ih =>
    unfold extractLoop
    by_cases h0 : n > 0
    · rw [if_pos h0]
      obtain ⟨c1, hc1⟩ : ∃ c1, c1 = (if c.dptr = 136 then (⟨processBlock c.A, 0⟩ : Ctx) else c) := ⟨_, rfl⟩
      have hin : c1.dptr = k % 136 ∧ c1.A = (k / 136).repeat F S := by
        cases hc with
        | inside h w =>
          rw [if_neg (by omega)] at hc1
          rw [hc1]; exact ⟨h, w⟩
        | edge h h1 w l =>
          rw [if_pos h] at hc1
          rw [hc1]
          have key : processBlock c.A = (k / 136).repeat F S := by rw [processBlock_eq _ l, w]
          exact ⟨h1.symm, by simp only []; exact key⟩
      dsimp only
      rw [← hc1, hin.1, hin.2]
      have hlen := Keccak.repeat_length (f := F) (fun l _ => F_length l) S hS (k / 136)
      obtain ⟨w, hw⟩ : ∃ w, w = (if 136 - k % 136 > n then n else 136 - k % 136) := ⟨_, rfl⟩
      rw [← hw]
      have hw1 : w ≤ n ∧ k % 136 + w ≤ 136 ∧ 0 < w := by rw [hw]; split <;> omega
      have hnext : At S (k + w) ⟨(k / 136).repeat F S, k % 136 + w⟩ := by
        by_cases h : k % 136 + w = 136
        · refine .edge h (by omega) ?_ hlen
          rw [show (k + w) / 136 = k / 136 + 1 by omega]; rfl
        · refine .inside (by show k % 136 + w = _; omega) ?_
          rw [show (k + w) / 136 = k / 136 by omega]
      obtain ⟨c', e1, e2⟩ := ih (k + w) (n - w) _ (out ++ (List.range w).map fun i => outByte ((k / 136).repeat F S) (k % 136 + i)) (by omega) hnext
      refine ⟨c', ?_, by rw [show k + n = k + w + (n - w) by omega]; exact e2⟩
      rw [e1, List.append_assoc]
      congr 2
      have e2 : List.range n = List.range w ++ (List.range (n - w)).map (w + ·) := by
        rw [← List.range_add]; congr 1; omega
      rw [e2, List.map_append, List.map_map]
      congr 1
      · apply List.map_congr_left
        intro j hj
        have hj := List.mem_range.mp hj
        rw [outByte_eq _ hlen _ (by omega), sqByte, show (k + j) / 136 = k / 136 by omega, show (k + j) % 136 = k % 136 + j by omega]
      · apply List.map_congr_left
        intro j _
        simp only [Function.comp, Nat.add_assoc]
    · rw [if_neg h0, show n = 0 by omega]
      exact ⟨c, by simp, hc⟩

end Verif.CRef.Shake
