import Verif.Contract.Props

/-! # C31 at the boundary: a signature of squared norm exactly 34034726 -/

namespace Verif.Contract

open Verif Verif.Packing Verif.NTT Verif.Ring Verif.Falcon Verif.Hash

/-- A hash function whose first output block holds the words 5833, 104, 4, 2, 1, 0, ... and whose other blocks are zero. -/
def edgeHash (x : Bytes) : Bytes :=
  if x.length = 40 ∧ x.drop 32 = List.replicate 8 0 then [22, 201, 0, 104, 0, 4, 0, 2, 0, 1] ++ List.replicate 22 0 else List.replicate 32 0

/-- The words of its stream. -/
def edgeWord (k : ℕ) : ℕ := [5833, 104, 4, 2, 1].getD k 0

/-- The point it hashes everything to; its squared norm is exactly 34034726. -/
def edgePoint : List ℕ := (List.range 512).map edgeWord

/-- A signature of the zero polynomial. -/
def edgeSig : Bytes := (0x29 : ℕ) :: List.replicate 40 0 ++ ((Encoding.compress (List.replicate 512 0) 625).getD [])

theorem edgeHash_ok (x : Bytes) : (edgeHash x).length = 32 ∧ IsBytes (edgeHash x) := by
  unfold edgeHash
  split
  · exact ⟨by decide, by decide⟩
  · exact ⟨by decide, by decide⟩

theorem edge_block (m : Bytes) (b : ℕ) (hb : b < 32) : edgeHash (edgeHash m ++ ctrBytes b) =
    if b = 0 then [22, 201, 0, 104, 0, 4, 0, 2, 0, 1] ++ List.replicate 22 0 else List.replicate 32 0 := by
  obtain ⟨h, _⟩ := edgeHash_ok m
  obtain ⟨x, hx⟩ : ∃ x, x = edgeHash m := ⟨_, rfl⟩
  rw [← hx] at h ⊢
  have hd : (x ++ ctrBytes b).drop 32 = ctrBytes b := by
    rw [List.drop_append_of_le_length (by rw [h]), List.drop_eq_nil_of_le (by rw [h]), List.nil_append]
  have hl : (x ++ ctrBytes b).length = 40 := by rw [List.length_append, h]; simp [ctrBytes]
  unfold edgeHash
  rw [hd, hl]
  by_cases h0 : b = 0
  · subst h0; rw [if_pos ⟨rfl, by decide⟩, if_pos rfl]
  · rw [if_neg, if_neg h0]
    rintro ⟨_, h1⟩
    have key : ∀ b < 32, ctrBytes b = List.replicate 8 0 → b = 0 := by decide
    exact h0 (key b hb h1)

theorem edge_word (m : Bytes) (k : ℕ) (hk : k < 512) : word16 (streamByte edgeHash m) k = edgeWord k := by
  unfold word16
  have e1 : streamByte edgeHash m (2 * k) = (edgeHash (edgeHash m ++ ctrBytes (k / 16))).getD (2 * (k % 16)) 0 := by
    unfold streamByte; rw [show 2 * k / 32 = k / 16 by omega, show 2 * k % 32 = 2 * (k % 16) by omega]
  have e2 : streamByte edgeHash m (2 * k + 1) = (edgeHash (edgeHash m ++ ctrBytes (k / 16))).getD (2 * (k % 16) + 1) 0 := by
    unfold streamByte; rw [show (2 * k + 1) / 32 = k / 16 by omega, show (2 * k + 1) % 32 = 2 * (k % 16) + 1 by omega]
  rw [e1, e2, edge_block m _ (by omega)]
  by_cases h : k < 16
  · rw [if_pos (by omega), Nat.mod_eq_of_lt h]
    have key : ∀ k < 16, 256 * ([22, 201, 0, 104, 0, 4, 0, 2, 0, 1] ++ List.replicate 22 0).getD (2 * k) 0 +
      ([22, 201, 0, 104, 0, 4, 0, 2, 0, 1] ++ List.replicate 22 0).getD (2 * k + 1) 0 = edgeWord k := by decide
    exact key k h
  · rw [if_neg (by omega)]
    have z : ∀ i, (List.replicate 32 0).getD i 0 = 0 := by
      intro i
      rw [List.getD_eq_getElem?_getD, List.getElem?_replicate]
      split <;> rfl
    rw [z, z]
    unfold edgeWord
    rw [List.getD_eq_getElem?_getD, List.getElem?_eq_none (by simp; omega)]
    rfl

theorem edgeWord_lt (k : ℕ) : edgeWord k < 12289 := by
  unfold edgeWord
  by_cases h : k < 5
  · have : ∀ k < 5, [5833, 104, 4, 2, 1].getD k 0 < 12289 := by decide
    exact this k h
  · rw [List.getD_eq_getElem?_getD, List.getElem?_eq_none (by simp; omega)]; simp

theorem edge_accepted (m : Bytes) : accepted (streamByte edgeHash m) 512 = edgePoint := by
  have e : (List.range 512).map (word16 (streamByte edgeHash m)) = edgePoint :=
    List.map_congr_left fun k hk => edge_word m k (List.mem_range.1 hk)
  have hl : ∀ x ∈ edgePoint, x < 12289 := by
    intro x hx
    obtain ⟨k, _, rfl⟩ := List.mem_map.1 hx
    exact edgeWord_lt k
  unfold accepted
  rw [e, List.filter_eq_self.2 (fun x hx => by have := hl x hx; simp; omega)]
  conv_rhs => rw [← List.map_id edgePoint]
  exact List.map_congr_left fun x hx => Nat.mod_eq_of_lt (hl x hx)

theorem edgePoint_length : edgePoint.length = 512 := by unfold edgePoint; rw [List.length_map, List.length_range]

theorem edge_hash (m salt : Bytes) (h : salt.length + m.length ≤ 4096) : Returns (keccakPrng edgeHash) 512 m salt edgePoint :=
  (C22_keccak edgeHash (fun x => (edgeHash_ok x).1) 512 m salt edgePoint).2 ⟨h, 512, edge_accepted _, edgePoint_length, by norm_num⟩

theorem normSq_range (f : ℕ → ℤ) (h : ∀ k, 5 ≤ k → f k = 0) (m : ℕ) (hm : 5 ≤ m) :
    normSq ((List.range m).map f) = f 0 * f 0 + f 1 * f 1 + f 2 * f 2 + f 3 * f 3 + f 4 * f 4 := by
  induction m with
  | zero => omega
  | succ m ih =>
    rw [List.range_succ, List.map_append]
    unfold normSq at ih ⊢
    rw [List.map_append, List.sum_append]
    by_cases h5 : 5 ≤ m
    · rw [ih h5, List.map_singleton, List.map_singleton, List.sum_singleton, h m h5]; ring
    · obtain rfl : m = 4 := by omega
      simp [List.range_succ]; ring

theorem edgeWord_zero (k : ℕ) (h : 5 ≤ k) : edgeWord k = 0 := by
  unfold edgeWord
  rw [List.getD_eq_getElem?_getD, List.getElem?_eq_none (by simpa using h)]; rfl

theorem edge_norm : normSq (List.map (fun x : ℕ => (x : ℤ)) edgePoint) = 34034726 := by
  unfold edgePoint
  rw [List.map_map, normSq_range _ (fun k hk => by simp [edgeWord_zero k hk]) 512 (by norm_num)]
  simp [edgeWord]

theorem edge_diff : normSq ((diff edgePoint (List.replicate 512 0)).take 511) = 34034726 := by
  have e : (diff edgePoint (List.replicate 512 0)).take 511 = (List.range 511).map fun k => Int.bmod (edgeWord k) 12289 := by
    apply List.ext_getElem
    · rw [List.length_take, length_diff, edgePoint_length, List.length_replicate, List.length_map, List.length_range]; rfl
    · intro i h1 h2
      rw [List.getElem_take, List.getElem_map, List.getElem_range]
      simp only [diff, List.getElem_zipWith, edgePoint, List.getElem_map, List.getElem_range, List.getElem_replicate, Nat.cast_zero, sub_zero]
  rw [e, normSq_range _ (fun k hk => by rw [edgeWord_zero k hk]; decide) 511 (by norm_num)]
  decide

theorem edge_decodes : Encoding.decompress (edgeSig.drop 41) 625 512 = .ok (some (List.replicate 512 0)) ∧ (saltOf edgeSig).length = 40 := by
  obtain ⟨c1, c2⟩ := Encoding.compress_fits_iff (List.replicate 512 0) 625
  have hlen : Encoding.Spec.codeLength (List.replicate 512 0) = 4608 := by decide +kernel
  cases hc : Encoding.compress (List.replicate 512 0) 625 with
  | none => have := c1.1 hc; omega
  | some enc =>
    obtain ⟨_, d2, d3, d4⟩ := (c2 enc).1 hc
    have es : edgeSig = (0x29 : ℕ) :: (List.replicate 40 0 ++ enc) := by unfold edgeSig; rw [hc]; rfl
    have key : ∀ (m : ℕ) (a : ℕ) (e : Bytes), ((a :: (List.replicate m 0 ++ e)).drop (m + 1) = e) ∧ ((a :: (List.replicate m 0 ++ e)).drop 1).take m = List.replicate m 0 := by
      intro m a e; simp
    have e1 : edgeSig.drop 41 = enc := by rw [es]; exact (key 40 _ enc).1
    have e2 : saltOf edgeSig = List.replicate 40 0 := by unfold saltOf; rw [es]; exact (key 40 _ enc).2
    refine ⟨?_, by rw [e2, List.length_replicate]⟩
    rw [e1, Encoding.decompress_accepts_iff _ _ _ (by norm_num)]
    refine ⟨by omega, List.length_replicate .., ?_⟩
    obtain ⟨k, hk⟩ := d4
    exact ⟨_, hk.symm⟩

/-- **C31 needs the strict inequality**: there are a hash function, a message and a signature (for every key) of squared norm exactly the bound, which the Python verifier accepts
(`norm > bound` rejects) and the contract rejects (`norm < bound` accepts). -/
theorem C31_boundary (fmp : ℕ) (P : PolyLib) (A : Arith P 512) (pk : List ℤ) (hpk : pk.length = 512) (ntth : List ℕ) (ht : ntth.length = 32) (hk : HoldsKey ntth (redN pk)) :
    VerifyReturns P (keccakPrng edgeHash) 512 34034726 666 pk [1] edgeSig true ∧
    ∃ fuel, verify (Hash.Sol.hashToPointEVM edgeHash) fmp [1] (saltOf edgeSig) (packPoly (List.replicate 512 0)) ntth fuel = some (.ok false) := by
  have he := (decompress_encodes 512 666 (by norm_num) edgeSig _).1 edge_decodes.1
  have l0 : (List.replicate 512 (0 : ℤ)).length = 512 := List.length_replicate ..
  have lp := edgePoint_length
  have edge_hash := edge_hash [1] (saltOf edgeSig) (by rw [edge_decodes.2]; decide)
  have z0 : normSq (List.replicate 512 0) = 0 := normSq_zeros _ fun x hx => List.eq_of_mem_replicate hx
  have zz : zq (List.replicate 512 0) = List.replicate 512 0 := by unfold zq; rw [List.map_replicate, Int.cast_zero]
  have hneg : negMul 512 (List.replicate 512 (0 : ZMod 12289)) (zq pk) = List.replicate 512 0 := by
    apply list_eq_of_ev 512 (by norm_num) _ _ (length_negMul ..) (List.length_replicate ..)
    rw [ev_negMul _ 512 (rt_pow 512) _ _ (List.length_replicate ..) (by rw [length_zq, hpk]), ev_replicate_zero, zero_mul]
  constructor
  · rw [C25_accepts_iff P _ 512 _ 666 (by norm_num) A pk hpk]
    refine ⟨_, _, he, edge_hash, List.map (fun x : ℕ => (x : ℤ)) edgePoint, ⟨by rw [List.length_map, lp], l0, ?_⟩, by rw [edge_norm, z0]; norm_num⟩
    rw [zz, hneg]
    apply List.ext_getElem
    · rw [List.length_zipWith, length_zq, List.length_replicate, List.length_map, lp]; rfl
    · intro i h1 h2
      rw [List.getElem_zipWith, List.getElem_replicate, add_zero]
  · obtain ⟨fuel, hf⟩ := C24_evm edgeHash (fun x => (edgeHash_ok x).1) (fun x => (edgeHash_ok x).2) _ _ _ edge_hash
    obtain ⟨p1, p2⟩ := packPoly_spec (List.replicate 512 0) l0
    refine ⟨fuel, ?_⟩
    rw [verify_ok _ fmp _ _ _ ntth _ fuel (saltOf_length (by norm_num) he) p1 ht hf]
    have hz : redN (List.replicate 512 0) = List.replicate 512 0 := by unfold redN; rw [List.map_replicate]; rfl
    have hp : IsProduct 12289 (fields (packPoly (List.replicate 512 0))) (redN pk) (List.replicate 512 0) := by
      rw [p2, hz]
      refine ⟨rfl, fun x hx => by rw [List.eq_of_mem_replicate hx]; norm_num, ?_⟩
      unfold NTT.toZ
      rw [List.map_replicate, List.length_replicate, Nat.cast_zero]
      have := hneg
      rw [← toZ_redN] at this
      exact this.symm
    have hc := C30_accepts_iff fmp _ ntth edgePoint _ _ p1 ht lp hk hp
    rw [edge_diff] at hc
    cases hb : falconCore fmp (packPoly (List.replicate 512 0)) ntth edgePoint with
    | false => rfl
    | true => exact absurd (hc.1 hb) (by norm_num)

end Verif.Contract
