import Verif.CRef.ApiProps

/-! # Constant signatures: for the key `h = c⁻¹ · hash` the vector with the single coefficient `c` is accepted (used for the concrete instances) -/

namespace Verif.CRef
open Verif Verif.Ring Verif.Falcon Verif.CRef.CodecSpec

/-- The constant polynomial `c`. -/
def constVec (c : Int) : List Int := c :: List.replicate 511 0

theorem constVec_length (c : Int) : (constVec c).length = 512 := by unfold constVec; rw [List.length_cons, List.length_replicate]

theorem constVec_mem {c x : Int} (h : x ∈ constVec c) : x = c ∨ x = 0 := by
  unfold constVec at h
  rcases List.mem_cons.1 h with h | h
  · exact Or.inl h
  · exact Or.inr (List.eq_of_mem_replicate h)

theorem constVec_normSq (c : Int) : normSq (constVec c) = c * c := by
  unfold normSq constVec
  rw [List.map_cons, List.map_replicate, List.sum_cons, List.sum_replicate]
  norm_num

theorem normSq_zero : normSq (List.replicate 512 0) = 0 := by
  unfold normSq
  rw [List.map_replicate, List.sum_replicate]
  norm_num

theorem negMul_const (c : Int) (b : List (ZMod 12289)) (hb : b.length = 512) : negMul 512 (zq (constVec c)) b = b.map fun x => (c : ZMod 12289) * x := by
  unfold negMul
  apply List.ext_getElem
  · rw [List.length_map, List.length_map, List.length_range, hb]
  · intro k k1 k2
    rw [List.length_map, hb] at k2
    rw [List.getElem_map, List.getElem_map, List.getElem_range]
    unfold negCoeff
    have hz : ∀ i, (zq (constVec c)).getD i 0 = if i = 0 then (c : ZMod 12289) else 0 := by
      intro i
      unfold zq constVec
      rw [List.map_cons, List.map_replicate]
      cases i with
      | zero => simp only [List.getD_cons_zero, if_true]
      | succ i =>
        rw [List.getD_cons_succ, if_neg (by omega), List.getD_eq_getElem?_getD, List.getElem?_replicate]
        split <;> simp
    rw [Finset.sum_eq_single 0]
    · rw [Finset.sum_eq_single k]
      · rw [hz, if_pos rfl, if_pos (by omega), List.getD_eq_getElem?_getD, List.getElem?_eq_getElem (by omega), Option.getD_some]
      · intro j hj hne
        rw [Finset.mem_range] at hj
        rw [if_neg (by omega), if_neg (by omega)]
      · intro h
        exact absurd (Finset.mem_range.2 k2) h
    · intro i _ hi
      refine Finset.sum_eq_zero fun j _ => ?_
      rw [hz, if_neg hi]
      simp
    · intro h
      exact absurd (Finset.mem_range.2 (by norm_num)) h

/-- The key for which the constant `1/d` signs the point. -/
def scaleKey (d : Nat) (hm : List Nat) : List Nat := List.map (fun x : ℕ => d * x % 12289) hm

theorem scaleKey_poly (d : Nat) (hm : List Nat) (h : Poly 512 hm) : Poly 512 (scaleKey d hm) := by
  refine ⟨by unfold scaleKey; rw [List.length_map]; exact h.1, fun x hx => ?_⟩
  obtain ⟨y, _, rfl⟩ := List.mem_map.1 hx
  exact Nat.mod_lt _ (by norm_num)

theorem accepts_const (c : Int) (d : Nat) (hcd : (c : ZMod 12289) * (d : ZMod 12289) = 1) (hc : c * c ≤ 34034726) (hm : List Nat) (h : Poly 512 hm) :
    Accepts 512 34034726 (scaleKey d hm) hm (constVec c) := by
  refine ⟨List.replicate 512 0, List.length_replicate, fun x hx => ?_, ?_, ?_⟩
  · rw [List.eq_of_mem_replicate hx]; norm_num
  · have hl : (NTT.toZ 12289 (scaleKey d hm)).length = 512 := by unfold NTT.toZ; rw [List.length_map]; exact (scaleKey_poly d hm h).1
    rw [negMul_const c _ hl]
    apply List.ext_getElem
    · unfold NTT.toZ at hl
      unfold zq NTT.toZ
      rw [List.length_zipWith, List.length_map, List.length_map, hl, List.length_map, List.length_replicate, h.1]
      norm_num
    · intro i i1 i2
      have i3 : i < 512 := by unfold NTT.toZ at i2; rw [List.length_map, h.1] at i2; exact i2
      have e1 : (List.replicate 512 (0 : ℤ))[i]! = 0 := by rw [getElem!_pos _ _ (by rw [List.length_replicate]; exact i3), List.getElem_replicate]
      have i4 : i < hm.length := by rw [h.1]; exact i3
      have e2 : (scaleKey d hm)[i]! = d * hm[i]! % 12289 := by
        unfold scaleKey
        rw [getElem!_pos _ _ (by rw [List.length_map]; exact i4), List.getElem_map, getElem!_pos hm i i4]
      rw [List.getElem_zipWith, List.getElem_map, get_zq, get_toZ, get_toZ, e1, e2, ZMod.natCast_mod]
      push_cast
      rw [← mul_assoc, hcd]
      ring
  · rw [normSq_zero, constVec_normSq]
    omega

/-- The public keys of a polynomial. -/
theorem isKey16_of (h : List Nat) (hh : Poly 512 h) : IsKey16 h (9 :: be16 (toNtt 9 h)) := ⟨_, hh, (transform_iff h _ hh).2 rfl, rfl⟩

theorem key16_of (h : List Nat) (hh : Poly 512 h) : IsBytes (9 :: be16 (toNtt 9 h)) ∧ (9 :: be16 (toNtt 9 h)).length = 1025 := by
  have ht := ((transform_iff h _ hh).2 rfl).1
  refine ⟨isBytes_cons.2 ⟨by norm_num, be16_bytes _ fun w hw => by have := ht.2 w hw; omega⟩, ?_⟩
  rw [List.length_cons, be16_length, ht.1]

/-- The words of a constant. -/
def constWords (w : Nat) : List Nat := w :: List.replicate 511 0

theorem constWords_value (w : Nat) : (constWords w).map value16 = constVec (value16 w) := by
  unfold constWords constVec
  rw [List.map_cons, List.map_replicate]
  rfl

theorem constWords_length (w : Nat) : (constWords w).length = 512 := by unfold constWords; rw [List.length_cons, List.length_replicate]

theorem constWords_word (w : Nat) (h : Word16 w) : ∀ v ∈ constWords w, Word16 v := by
  intro v hv
  unfold constWords at hv
  rcases List.mem_cons.1 hv with rfl | hv
  · exact h
  · rw [List.eq_of_mem_replicate hv]; exact Or.inl (by norm_num)

/-- A signed message for any nonce and message whose hash is defined. -/
theorem signed_const (eth : Bool) (nonce m : Bytes) (hn : nonce.length = 40) (hm : List Nat) (hh : Hashes eth (nonce ++ m) hm) (w d : Nat) (hw : Word16 w)
    (hcd : (value16 w : ZMod 12289) * (d : ZMod 12289) = 1) (hc : value16 w * value16 w ≤ 34034726) :
    Signed16 eth (scaleKey d hm) m ([4, 1] ++ nonce ++ m ++ 0x29 :: be16 (constWords w)) :=
  ⟨nonce, constWords w, hm, hn, rfl, constWords_length w, constWords_word w hw, hh, by rw [constWords_value]; exact accepts_const _ d hcd hc hm (hashes_poly hh)⟩

end Verif.CRef
