import Verif.CRef.ApiContract
import Verif.CRef.ApiExamples

/-! # Concrete cases for C88 -/

namespace Verif.CRef
open Verif Verif.Hash Verif.Ring Verif.Falcon Verif.Contract Verif.Packing Verif.CRef.CodecSpec

/-- With the key `-hash`, the word of `-1` leaves only the zero vector for the first half. -/
theorem const_strict (hm : List Nat) (hp : Poly 512 hm) (s1 : List ℤ) (hl : s1.length = 512) (hb : ∀ x ∈ s1, -6144 ≤ x ∧ x ≤ 6144)
    (he : List.zipWith (· + ·) (zq s1) (negMul 512 (zq (constVec (-1))) (NTT.toZ 12289 (scaleKey 12288 hm))) = NTT.toZ 12289 hm) : normSq s1 = 0 := by
  have hl2 : (NTT.toZ 12289 (scaleKey 12288 hm)).length = 512 := by unfold NTT.toZ; rw [List.length_map]; exact (scaleKey_poly 12288 hm hp).1
  rw [negMul_const _ _ hl2] at he
  apply normSq_zeros
  intro x hx
  obtain ⟨i, hi, rfl⟩ := List.mem_iff_getElem.1 hx
  have b := hb _ hx
  have i3 : i < 512 := by rw [← hl]; exact hi
  have i4 : i < hm.length := by rw [hp.1]; exact i3
  have i5 : i < (scaleKey 12288 hm).length := by rw [(scaleKey_poly 12288 hm hp).1]; exact i3
  have e := congrArg (fun l : List (ZMod 12289) => l[i]?) he
  simp only [zq, NTT.toZ, scaleKey, List.getElem?_zipWith, List.getElem?_map, List.getElem?_eq_getElem hi, List.getElem?_eq_getElem i4, Option.map_some] at e
  have e2 := Option.some.inj e
  have hz : (((-1 : ℤ) : ZMod 12289)) * ((12288 : ℕ) : ZMod 12289) = 1 := by decide +kernel
  rw [ZMod.natCast_mod, Nat.cast_mul, ← mul_assoc, hz, one_mul] at e2
  have e3 : ((s1[i] : ℤ) : ZMod 12289) = 0 := by
    have := congrArg (· - (hm[i] : ZMod 12289)) e2
    simpa using this
  rw [ZMod.intCast_zmod_eq_zero_iff_dvd] at e3
  omega

/-- C88: a signed message that the C code opens and the contract accepts, in both variants. -/
example (eth : Bool) (fmp : Nat) : ∃ t fuel, Contract.verify (contractHash eth) fmp [6] nonce5 (packed (constWords 12288)) (packed t) fuel = some (.ok true) := by
  obtain ⟨hm, hh⟩ := hash_six eth
  have hp := scaleKey_poly 12288 hm (hashes_poly hh)
  obtain ⟨k1, k2⟩ := key16_of _ hp
  have hw : Word16 12288 := Or.inl (by norm_num)
  have hz : (((-1 : ℤ) : ZMod 12289)) * ((12288 : ℕ) : ZMod 12289) = 1 := by decide +kernel
  have hs := signed_const eth nonce5 [6] rfl hm hh 12288 12288 hw (by rw [w12288]; exact hz) (by rw [w12288]; norm_num)
  have ho := (C81_open16 eth _ _ _ (const_bytes _ _ nonce5_bytes six_bytes _ hw) k1 k2).2 ⟨_, isKey16_of _ hp, hs⟩
  refine ⟨toNtt 9 (scaleKey 12288 hm), C88_contract_accepts eth fmp nonce5 [6] _ _ _ hm rfl nonce5_bytes six_bytes (fun _ => by norm_num) hp ((transform_iff _ _ hp).2 rfl)
    (constWords_length _) (fun w hw => ?_) hh ho ?_⟩
  · unfold constWords at hw
    rcases List.mem_cons.1 hw with rfl | hw
    · norm_num
    · rw [List.eq_of_mem_replicate hw]; norm_num
  · intro s1 h1 h2 h3
    rw [constWords_value, w12288] at h3 ⊢
    rw [const_strict hm (hashes_poly hh) s1 h1 h2 h3, constVec_normSq]
    norm_num

/-- C88: for the key `1` and both variants, words that the contract accepts and the C code refuses. -/
example (eth : Bool) (fmp : Nat) : ∃ t ws : List Nat, ws.length = 512 ∧ (∃ fuel, Contract.verify (contractHash eth) fmp [6] nonce5 (packed ws) (packed t) fuel = some (.ok true)) ∧
    ¬ ∃ fuel, signOpen16 eth fuel ([4, 1] ++ nonce5 ++ [6] ++ 0x29 :: be16 ws) (9 :: be16 t) = .done [6] := by
  obtain ⟨hm, hh⟩ := hash_six eth
  obtain ⟨h, ⟨k1, k2⟩, _⟩ := C30_every_key oneKey
  obtain ⟨ws, a1, _, a3, a4⟩ := C88_converse_false eth fmp nonce5 [6] h _ hm rfl nonce5_bytes six_bytes (fun _ => by norm_num) k1 k2 (fun x hx => by
    obtain ⟨y, hy, rfl⟩ := List.mem_map.1 hx
    exact oneKey_ok.2 y hy) hh
  exact ⟨_, ws, a1, a3, a4⟩

end Verif.CRef
