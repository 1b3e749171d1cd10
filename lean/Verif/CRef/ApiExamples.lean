import Verif.CRef.ApiInst
import Verif.CRef.ApiConst
import Verif.CRef.ApiEpProps
import Verif.Tetration.Poly

/-! # Concrete cases for C81, C82, C83 and C87 -/

namespace Verif.CRef
open Verif Verif.Ring Verif.Falcon Verif.CRef.CodecSpec Verif.Hash Verif.Keccak

/-- The nonce of the examples. -/
def nonce5 : Bytes := [5, 5, 5, 5, 5, 5, 5, 5, 5, 5, 5, 5, 5, 5, 5, 5, 5, 5, 5, 5, 5, 5, 5, 5, 5, 5, 5, 5, 5, 5, 5, 5, 5, 5, 5, 5, 5, 5, 5, 5]

theorem nonce5_bytes : IsBytes nonce5 := by unfold nonce5 IsBytes; decide

theorem six_bytes : IsBytes [6] := by unfold IsBytes; decide

/-- Both generators give a point for the nonce and the message `[6]`. -/
theorem hash_six : ∀ eth : Bool, ∃ hm, Hashes eth (nonce5 ++ [6]) hm := by
  intro eth
  cases eth with
  | true =>
    obtain ⟨hm, h⟩ := point_short
    exact ⟨hm, h⟩
  | false => exact ⟨hmShake, point_shake⟩

theorem const_bytes (nonce m : Bytes) (hn : IsBytes nonce) (hm : IsBytes m) (w : Nat) (hw : Word16 w) : IsBytes ([4, 1] ++ nonce ++ m ++ 0x29 :: be16 (constWords w)) := by
  refine isBytes_append.2 ⟨isBytes_append.2 ⟨isBytes_append.2 ⟨by unfold IsBytes; decide, hn⟩, hm⟩, isBytes_cons.2 ⟨by decide, be16_bytes _ ?_⟩⟩
  intro v hv
  have := constWords_word w hw v hv
  unfold Word16 at this
  omega

theorem w12288 : value16 12288 = -1 := by decide
theorem w1 : value16 1 = 1 := by decide

/-- C81: a signed message that opens, in both variants. -/
theorem open_six (eth : Bool) : ∃ pk, IsBytes pk ∧ pk.length = 1025 ∧ ∃ fuel, signOpen16 eth fuel ([4, 1] ++ nonce5 ++ [6] ++ 0x29 :: be16 (constWords 12288)) pk = .done [6] := by
  obtain ⟨hm, hh⟩ := hash_six eth
  have hp := scaleKey_poly 12288 hm (hashes_poly hh)
  obtain ⟨k1, k2⟩ := key16_of _ hp
  have hw : Word16 12288 := Or.inl (by norm_num)
  have hz : (((-1 : ℤ) : ZMod 12289)) * ((12288 : ℕ) : ZMod 12289) = 1 := by decide +kernel
  have hs := signed_const eth nonce5 [6] rfl hm hh 12288 12288 hw (by rw [w12288]; exact hz) (by rw [w12288]; norm_num)
  exact ⟨_, k1, k2, (C81_open16 eth _ _ _ (const_bytes _ _ nonce5_bytes six_bytes _ hw) k1 k2).2 ⟨_, isKey16_of _ hp, hs⟩⟩

/-- C81: the same message is not opened from a text that is no signed message for it (the last word is cut). -/
example (eth : Bool) (pk : Bytes) (hp : IsBytes pk) (hl : pk.length = 1025) : ¬ ∃ fuel, signOpen16 eth fuel ([4, 1] ++ nonce5 ++ [6]) pk = .done [6] := by
  rw [C81_open16 _ _ _ _ (isBytes_append.2 ⟨isBytes_append.2 ⟨by unfold IsBytes; decide, nonce5_bytes⟩, six_bytes⟩) hp hl]
  rintro ⟨_, _, nonce, ws, _, h1, h2, _⟩
  have := congrArg List.length h2
  simp only [List.length_append, List.length_cons, List.length_nil, h1, nonce5] at this
  omega

/-- C82: the replay is possible for a concrete pair of long messages. -/
example : ∃ pk sig, (∃ fuel, signOpen16 true fuel ([4, 1] ++ nonce5 ++ List.replicate 4057 7 ++ 0x29 :: sig) pk = .done (List.replicate 4057 7)) ∧
    ∃ fuel, signOpen16 true fuel ([4, 1] ++ nonce5 ++ List.replicate 5000 8 ++ 0x29 :: sig) pk = .done (List.replicate 5000 8) := by
  obtain ⟨hm, hh⟩ := point_empty
  have rb : ∀ n b : Nat, b < 256 → IsBytes (List.replicate n b) := fun n b hb x hx => by rw [List.eq_of_mem_replicate hx]; exact hb
  have n40 : nonce5.length = 40 := rfl
  have hH : Hashes true (nonce5 ++ List.replicate 4057 7) hm := by
    have c : ¬ (nonce5 ++ List.replicate 4057 7).length ≤ 4096 := by rw [List.length_append, List.length_replicate, n40]; norm_num
    unfold Hashes
    simp only [if_true, c, if_false]
    exact hh
  have hp := scaleKey_poly 12288 hm (hashes_poly hH)
  obtain ⟨k1, k2⟩ := key16_of _ hp
  have hw : Word16 12288 := Or.inl (by norm_num)
  have hz : (((-1 : ℤ) : ZMod 12289)) * ((12288 : ℕ) : ZMod 12289) = 1 := by decide +kernel
  have hs := signed_const true nonce5 (List.replicate 4057 7) n40 hm hH 12288 12288 hw (by rw [w12288]; exact hz) (by rw [w12288]; norm_num)
  have b1 := const_bytes nonce5 (List.replicate 4057 7) nonce5_bytes (rb _ 7 (by norm_num)) 12288 hw
  have b2 := const_bytes nonce5 (List.replicate 5000 8) nonce5_bytes (rb _ 8 (by norm_num)) 12288 hw
  have ho := (C81_open16 true _ _ _ b1 k1 k2).2 ⟨_, isKey16_of _ hp, hs⟩
  exact ⟨_, _, ho, C82_verifier_false _ _ _ _ _ _ k1 k2 n40 n40 b1 b2 (by rw [List.length_replicate]; norm_num) (by rw [List.length_replicate]; norm_num) ho⟩

/-- C83: two different signed messages for one message, one key and one nonce, both accepted. -/
example (eth : Bool) : ∃ pk sm sm', sm ≠ sm' ∧ (∃ fuel, signOpen16 eth fuel sm pk = .done [6]) ∧ ∃ fuel, signOpen16 eth fuel sm' pk = .done [6] := by
  obtain ⟨pk, k1, k2, ho⟩ := open_six eth
  have h := C83_malleable eth pk [6] nonce5 [] (List.replicate 511 0) 12288 k1 k2 rfl (isBytes_append.2 ⟨nonce5_bytes, six_bytes⟩)
    (by rw [List.nil_append, List.length_cons, List.length_replicate]) (by norm_num) (by intro v hv; rw [List.nil_append] at hv; rw [List.eq_of_mem_replicate hv]; norm_num) ho
  exact ⟨pk, _, _, h.1, ho, h.2⟩

/-! ## C87 -/

theorem one_unit : IsUnitPoly 512 (zq (constVec 1)) := by
  have hl : (zq (constVec 1)).length = 512 := by unfold zq; rw [List.length_map, constVec_length]
  refine ⟨zq (constVec 1), hl, ?_⟩
  rw [negMul_const 1 _ hl]
  have : List.map (fun x : ZMod 12289 => ((1 : ℤ) : ZMod 12289) * x) (zq (constVec 1)) = zq (constVec 1) := by
    conv_rhs => rw [← List.map_id (zq (constVec 1))]
    refine List.map_congr_left fun x _ => ?_
    simp
  rw [this]
  unfold zq constVec one
  rw [List.map_cons, List.map_replicate, Int.cast_one, Int.cast_zero]

/-- A key pair whose signer returns the constant `c`: all hypotheses of C87 hold, for both values of the switch. -/
theorem chain_instance (eth : Bool) (c : Int) (d : Nat) (hcd : (c : ZMod 12289) * (d : ZMod 12289) = 1) (hc : c * c ≤ 34034726) :
    ∃ pk sk sm, (∃ fuel, signWith encSig16 eth fuel (fun _ _ _ _ _ _ => constVec c) nonce5 [] [6] sk = .done sm) ∧ ((∃ fuel, signOpen16 eth fuel sm pk = .done [6]) ↔ c ≤ 2046) := by
  obtain ⟨hm, hh⟩ := hash_six eth
  have hp := scaleKey_poly d hm (hashes_poly hh)
  have hz : ∀ c : Int, (c = 0 ∨ c = 1) → ∀ x ∈ constVec c, -31 ≤ x ∧ x ≤ 31 := fun c hc x hx => by rcases constVec_mem hx with rfl | rfl <;> omega
  have hz' : ∀ c : Int, (c = 0 ∨ c = 1) → ∀ x ∈ constVec c, -127 ≤ x ∧ x ≤ 127 := fun c hc x hx => by rcases constVec_mem hx with rfl | rfl <;> omega
  obtain ⟨pk, sk, hkp⟩ := (C87_keypair16 (constVec 1) (constVec 0) (constVec 0) (scaleKey d hm) (constVec_length _) (constVec_length _) (constVec_length _) hp).1.2
    ⟨hz 1 (Or.inr rfl), hz 0 (Or.inl rfl), hz' 0 (Or.inl rfl)⟩
  have l0 : ∀ c, (zq (constVec c)).length = 512 := fun c => by unfold zq; rw [List.length_map, constVec_length]
  obtain ⟨sm, s1, s2⟩ := C87_chain16 eth (fun _ _ _ _ _ _ => constVec c) nonce5 [] [6] sk pk (scaleKey d hm) (constVec 1) (constVec 0) (constVec 0) (constVec 0) hm
    (constVec_length _) (constVec_length _) (constVec_length _) (constVec_length _) hp hkp one_unit (hz' 0 (Or.inl rfl))
    (by rw [negMul_const _ _ (l0 1), negMul_const _ _ (l0 0)]
        have k : ∀ l : List (ZMod 12289), l.length = 512 → List.map (fun x : ZMod 12289 => ((0 : ℤ) : ZMod 12289) * x) l = List.replicate 512 0 := by
          intro l hl
          rw [← hl, ← List.map_const']
          refine List.map_congr_left fun x _ => ?_
          simp
        rw [k _ (l0 1), k _ (l0 0)])
    rfl nonce5_bytes six_bytes (fun _ => by norm_num) hh (constVec_length _) (accepts_const c d hcd hc hm (hashes_poly hh))
  refine ⟨pk, sk, sm, s1, s2.trans ⟨fun h => h c (by unfold constVec; exact List.mem_cons_self), fun h x hx => ?_⟩⟩
  rcases constVec_mem hx with rfl | rfl
  · exact h
  · norm_num

/-- C87: signing and opening succeed for the signer that returns `1`. -/
example (eth : Bool) : ∃ pk sk sm, (∃ fuel, signWith encSig16 eth fuel (fun _ _ _ _ _ _ => constVec 1) nonce5 [] [6] sk = .done sm) ∧ ∃ fuel, signOpen16 eth fuel sm pk = .done [6] := by
  obtain ⟨pk, sk, sm, h1, h2⟩ := chain_instance eth 1 1 (by decide +kernel) (by norm_num)
  exact ⟨pk, sk, sm, h1, h2.2 (by norm_num)⟩

/-- C87: a short signature with the coefficient 2047 is produced by the signer and refused by the verifier. -/
example (eth : Bool) : ∃ pk sk sm, (∃ fuel, signWith encSig16 eth fuel (fun _ _ _ _ _ _ => constVec 2047) nonce5 [] [6] sk = .done sm) ∧ ¬ ∃ fuel, signOpen16 eth fuel sm pk = .done [6] := by
  obtain ⟨pk, sk, sm, h1, h2⟩ := chain_instance eth 2047 8777 (by decide +kernel) (by norm_num)
  exact ⟨pk, sk, sm, h1, fun h => absurd (h2.1 h) (by norm_num)⟩

set_option maxRecDepth 100000 in
theorem comp_one : ∃ e, encSig (constVec 1) = some e := Option.isSome_iff_exists.1 (by decide +kernel)

/-- C81, C87 in the NIST format: signing and opening succeed for the signer that returns `1`. -/
example (eth : Bool) : ∃ pk sk sm, (∃ fuel, signWith encSig eth fuel (fun _ _ _ _ _ _ => constVec 1) nonce5 [] [6] sk = .done sm) ∧ ∃ fuel, signOpen eth fuel sm pk = .done [6] := by
  obtain ⟨hm, hh⟩ := hash_six eth
  have hp := scaleKey_poly 1 hm (hashes_poly hh)
  have hz : ∀ c : Int, (c = 0 ∨ c = 1) → ∀ x ∈ constVec c, -31 ≤ x ∧ x ≤ 31 := fun c hc x hx => by rcases constVec_mem hx with rfl | rfl <;> omega
  have hz' : ∀ c : Int, (c = 0 ∨ c = 1) → ∀ x ∈ constVec c, -127 ≤ x ∧ x ≤ 127 := fun c hc x hx => by rcases constVec_mem hx with rfl | rfl <;> omega
  have hK := C87_keypair14 (constVec 1) (constVec 0) (constVec 0) (scaleKey 1 hm) (constVec_length _) (constVec_length _) (constVec_length _) hp
  obtain ⟨pk, sk, hkp⟩ := hK.1.2 ⟨hz 1 (Or.inr rfl), hz 0 (Or.inl rfl), hz' 0 (Or.inl rfl)⟩
  obtain ⟨k1, _, _, _, _, k6⟩ := hK.2 pk sk hkp
  have l0 : ∀ c, (zq (constVec c)).length = 512 := fun c => by unfold zq; rw [List.length_map, constVec_length]
  have hd := (k6 (constVec 1) (constVec 0) (constVec 0) (constVec 0)).2 ⟨rfl, rfl, rfl, one_unit, constVec_length _, hz' 0 (Or.inl rfl), by
    rw [negMul_const _ _ (l0 1), negMul_const _ _ (l0 0)]
    have k : ∀ l : List (ZMod 12289), l.length = 512 → List.map (fun x : ZMod 12289 => ((0 : ℤ) : ZMod 12289) * x) l = List.replicate 512 0 := by
      intro l hl
      rw [← hl, ← List.map_const']
      refine List.map_congr_left fun x _ => ?_
      simp
    rw [k _ (l0 1), k _ (l0 0)]⟩
  obtain ⟨a, b⟩ := C87_sign_open14 eth (fun _ _ _ _ _ _ => constVec 1) nonce5 [] [6] sk pk (scaleKey 1 hm) _ _ _ _ hm rfl nonce5_bytes six_bytes (fun _ => by norm_num) k1 hd hh (constVec_length _)
    (accepts_const 1 1 (by decide +kernel) (by norm_num) hm (hashes_poly hh))
  obtain ⟨e, he⟩ := comp_one
  unfold encSig at he
  obtain ⟨e1, e2, e3, e4, e5⟩ := (C79_comp_encode _ _ _).1 he
  obtain ⟨sm, hsm⟩ := a.2 ⟨e, e3, by rw [e4]; exact e2 _ rfl, constVec_length _, e1, e4, e5⟩
  exact ⟨pk, sk, sm, hsm, b sm hsm⟩

/-! ## C84 -/

theorem negMul_comm' (n : Nat) (a b : List (ZMod 12289)) : negMul n a b = negMul n b a := by
  unfold negMul
  refine List.map_congr_left fun k _ => ?_
  unfold negCoeff
  rw [Finset.sum_comm]
  refine Finset.sum_congr rfl fun i _ => Finset.sum_congr rfl fun j _ => ?_
  rw [Nat.add_comm j i, mul_comm (a.getD j 0)]

/-- The pair `(0, 1)` recovers the hash itself as the key. -/
theorem recovers_one (hm : List Nat) (h : Poly 512 hm) : Recovers hm hm ((constWords 0).map value16) ((constWords 1).map value16) := by
  have e0 : (constWords 0).map value16 = List.replicate 512 0 := by
    rw [constWords_value, show value16 0 = 0 from by decide]
    unfold constVec
    rw [← List.replicate_succ]
  have e1 : (constWords 1).map value16 = constVec 1 := by rw [constWords_value, w1]
  have hl : (NTT.toZ 12289 hm).length = 512 := by unfold NTT.toZ; rw [List.length_map]; exact h.1
  rw [e0, e1]
  refine ⟨one_unit, by rw [normSq_zero, constVec_normSq]; norm_num, ?_⟩
  rw [negMul_comm', negMul_const 1 _ hl]
  apply List.ext_getElem
  · unfold zq
    rw [List.length_zipWith, List.length_map, List.length_map, List.length_replicate, hl]
    norm_num
  · intro i i1 i2
    have i3 : i < 512 := by rw [hl] at i2; exact i2
    have e1 : (List.replicate 512 (0 : ℤ))[i]! = 0 := by rw [getElem!_pos _ _ (by rw [List.length_replicate]; exact i3), List.getElem_replicate]
    rw [List.getElem_zipWith, List.getElem_map, get_zq, e1]
    simp only [Int.cast_zero, Int.cast_one, one_mul, zero_add]

theorem hm_hashes : Hashes false (nonce5 ++ [6]) hmShake := point_shake

theorem hm_poly : Poly 512 hmShake := hashes_poly hm_hashes

theorem const01 : (∀ w ∈ constWords 0, Word16 w) ∧ ∀ w ∈ constWords 1, Word16 w := ⟨constWords_word 0 (Or.inl (by norm_num)), constWords_word 1 (Or.inl (by norm_num))⟩

/-- A complete signed message (here with the bytes 1, 2 after the halves) that opens under the key of the polynomial `hmShake`. -/
theorem openEp_six : ∃ pk, IsKey16 hmShake pk ∧ IsBytes pk ∧ pk.length = 1025 ∧ ∃ fuel,
    signOpenEpervier fuel [] ([(2050 + List.length [1, 2]) / 256, (2050 + List.length [1, 2]) % 256] ++ nonce5 ++ [6] ++ 0x29 :: (be16 (constWords 0) ++ 0x29 :: (be16 (constWords 1) ++ [1, 2]))) pk
      = .done [6] := by
  obtain ⟨k1, k2⟩ := key16_of _ hm_poly
  have hlen : (be16 (constWords 0) ++ 0x29 :: (be16 (constWords 1) ++ [1, 2])).length = 2051 := by
    rw [List.length_append, List.length_cons, List.length_append, be16_length, be16_length, constWords_length, constWords_length]
    rfl
  refine ⟨_, isKey16_of _ hm_poly, k1, k2, (C84_open _ _ _ _ ?_ (by intro b hb; cases hb) k1 k2).2 ⟨hmShake, isKey16_of _ hm_poly, nonce5, _, constWords 0, constWords 1, [1, 2], hmShake,
    rfl, by rw [hlen]; norm_num, by rw [hlen]; rfl, by rw [List.append_nil], constWords_length _, constWords_length _, const01.1, const01.2, hm_hashes, recovers_one _ hm_poly⟩⟩
  exact isBytes_append.2 ⟨isBytes_append.2 ⟨isBytes_append.2 ⟨by unfold IsBytes; decide, nonce5_bytes⟩, six_bytes⟩,
      isBytes_cons.2 ⟨by decide, isBytes_append.2 ⟨word16_bytes _ const01.1, isBytes_cons.2 ⟨by decide, isBytes_append.2 ⟨word16_bytes _ const01.2, by unfold IsBytes; decide⟩⟩⟩⟩⟩

/-- C84: the bytes after the halves may be dropped. -/
example : ∃ pk fuel, signOpenEpervier fuel [] ([8, 2] ++ nonce5 ++ [6] ++ 0x29 :: (be16 (constWords 0) ++ 0x29 :: (be16 (constWords 1) ++ []))) pk = .done [6] := by
  obtain ⟨pk, _, k1, k2, ho⟩ := openEp_six
  exact ⟨pk, C84_hint_false pk [6] nonce5 _ _ [1, 2] [] k1 k2 rfl (isBytes_append.2 ⟨nonce5_bytes, six_bytes⟩) const01.1 const01.2 (constWords_length _) (constWords_length _)
    (by unfold IsBytes; decide) (by unfold IsBytes; decide) (by decide) (by decide) ho⟩

/-- C84: the same 43 bytes are accepted or refused depending on the memory behind them. -/
example : ∃ pk mem, (∃ fuel, signOpenEpervier fuel mem ([0, 1] ++ nonce5 ++ [6] ++ [0x29]) pk = .done [6]) ∧ ¬ ∃ fuel, signOpenEpervier fuel [] ([0, 1] ++ nonce5 ++ [6] ++ [0x29]) pk = .done [6] := by
  obtain ⟨pk, _, k1, k2, ho⟩ := openEp_six
  exact ⟨pk, _, C84_memory_false pk [6] nonce5 _ _ [1, 2] k1 k2 rfl (isBytes_append.2 ⟨nonce5_bytes, six_bytes⟩) const01.1 const01.2 (constWords_length _) (constWords_length _)
    (by unfold IsBytes; decide) (by decide) ho⟩

theorem horner_eval (l : List Nat) : ((horner l : ℕ) : ZMod 12289) = ∑ i ∈ Finset.range l.length, (l.getD i 0 : ZMod 12289) * 49 ^ i := by
  induction l with
  | nil => simp [horner]
  | cons x l ih =>
    have e : horner (x :: l) = (x + 49 * horner l) % 12289 := rfl
    rw [e, ZMod.natCast_mod, List.length_cons, Finset.sum_range_succ', Nat.cast_add, Nat.cast_mul, ih, Finset.mul_sum]
    simp only [List.getD_cons_zero, List.getD_cons_succ, pow_zero, mul_one]
    rw [add_comm]
    congr 1
    refine Finset.sum_congr rfl fun i _ => ?_
    push_cast
    ring

/-- C84: the signed message above opens under the key of the key generator and not under the key after `zknox_pk_epervier`. -/
example : ∃ sm pk pk', (∃ fuel, signOpenEpervier fuel [] sm pk = .done [6]) ∧ pkEpervier pk = some pk' ∧ ¬ ∃ fuel, signOpenEpervier fuel [] sm pk' = .done [6] := by
  obtain ⟨pk, ⟨t, hh, ht, hpk⟩, _, _, ho⟩ := openEp_six
  obtain ⟨pk', h1, _⟩ := C84_pk hmShake t hh ht
  rw [← hpk] at h1
  refine ⟨_, pk, pk', ho, h1, ?_⟩
  rw [C84_pk_twice_false [] _ pk pk' [6] hmShake t ?_ (by intro b hb; cases hb) hh ht hpk h1 ho]
  · intro e
    have h0 := ht.2 0 (by norm_num)
    rw [e, Tetration.eval_toPoly] at h0
    have hr : NTT.root 0 = 49 := by decide +kernel
    have hz : (NTT.toZ 12289 hmShake).length = hmShake.length := by unfold NTT.toZ; rw [List.length_map]
    rw [hr, hz] at h0
    have h2 : ∀ i, (NTT.toZ 12289 hmShake).getD i 0 = (hmShake.getD i 0 : ZMod 12289) := by
      intro i
      unfold NTT.toZ
      rw [List.getD_eq_getElem?_getD, List.getElem?_map, List.getD_eq_getElem?_getD]
      cases hmShake[i]? <;> simp
    simp only [h2] at h0
    rw [← horner_eval] at h0
    have h3 : horner hmShake < 12289 := by
      cases hmShake with
      | nil => decide
      | cons x l => exact Nat.mod_lt _ (by norm_num)
    have h4 : hmShake.getD 0 0 < 12289 := by
      rw [List.getD_eq_getElem?_getD, List.getElem?_eq_getElem (by rw [hm_poly.1]; norm_num), Option.getD_some]
      exact hm_poly.2 _ (List.getElem_mem _)
    have h5 := (ZMod.natCast_eq_natCast_iff' _ _ _).1 h0
    rw [Nat.mod_eq_of_lt h3, Nat.mod_eq_of_lt h4] at h5
    exact value_shake h5.symm
  · exact isBytes_append.2 ⟨isBytes_append.2 ⟨isBytes_append.2 ⟨by unfold IsBytes; decide, nonce5_bytes⟩, six_bytes⟩,
      isBytes_cons.2 ⟨by decide, isBytes_append.2 ⟨word16_bytes _ const01.1, isBytes_cons.2 ⟨by decide, isBytes_append.2 ⟨word16_bytes _ const01.2, by unfold IsBytes; decide⟩⟩⟩⟩⟩

/-- C84: the hypotheses of `C84_sign_open` hold for the key `f = 1` and the signer that returns `(0, 1)`; signing and opening succeed. -/
example : ∃ pk sk sm, (∃ fuel loops, signEpervier fuel loops (fun _ _ _ _ _ sc => (sc, constVec 1, constVec 0)) nonce5 [] [6] sk = .done sm) ∧ ∃ fuel, signOpenEpervier fuel [] sm pk = .done [6] := by
  have hz : ∀ c : Int, (c = 0 ∨ c = 1) → ∀ x ∈ constVec c, -31 ≤ x ∧ x ≤ 31 := fun c hc x hx => by rcases constVec_mem hx with rfl | rfl <;> omega
  have hz' : ∀ c : Int, (c = 0 ∨ c = 1) → ∀ x ∈ constVec c, -127 ≤ x ∧ x ≤ 127 := fun c hc x hx => by rcases constVec_mem hx with rfl | rfl <;> omega
  have hK := C87_keypair16 (constVec 1) (constVec 0) (constVec 0) hmShake (constVec_length _) (constVec_length _) (constVec_length _) hm_poly
  obtain ⟨pk, sk, hkp⟩ := hK.1.2 ⟨hz 1 (Or.inr rfl), hz 0 (Or.inl rfl), hz' 0 (Or.inl rfl)⟩
  obtain ⟨k1, _, _, _, _, k6⟩ := hK.2 pk sk hkp
  have l0 : ∀ c, (zq (constVec c)).length = 512 := fun c => by unfold zq; rw [List.length_map, constVec_length]
  have hd := (k6 (constVec 1) (constVec 0) (constVec 0) (constVec 0)).2 ⟨rfl, rfl, rfl, one_unit, constVec_length _, hz' 0 (Or.inl rfl), by
    rw [negMul_const _ _ (l0 1), negMul_const _ _ (l0 0)]
    have k : ∀ l : List (ZMod 12289), l.length = 512 → List.map (fun x : ZMod 12289 => ((0 : ℤ) : ZMod 12289) * x) l = List.replicate 512 0 := by
      intro l hl
      rw [← hl, ← List.map_const']
      refine List.map_congr_left fun x _ => ?_
      simp
    rw [k _ (l0 1), k _ (l0 0)]⟩
  have hR := recovers_one _ hm_poly
  rw [constWords_value, constWords_value, w1, show value16 0 = 0 from by decide] at hR
  obtain ⟨_, b⟩ := C84_sign_open (fun _ _ _ _ _ sc => (sc, constVec 1, constVec 0)) [] nonce5 [] [6] sk pk hmShake _ _ _ _ hmShake rfl nonce5_bytes six_bytes (by intro b hb; cases hb) k1 hd
    hm_hashes (fun sc => ⟨constVec_length _, constVec_length _, hR.2.1, hR.2.2⟩)
  obtain ⟨sm, hint, _, _, _, c1, c2⟩ := b (constVec 0) (constVec 1) ⟨0, rfl, one_unit, fun j hj => absurd hj (by omega)⟩
  refine ⟨pk, sk, sm, (c1 sm).2 rfl, c2.2 ⟨fun x hx => ?_, fun x hx => ?_⟩⟩
  · rcases constVec_mem hx with rfl | rfl <;> norm_num
  · rcases constVec_mem hx with rfl | rfl <;> norm_num

end Verif.CRef
