import Verif.CRef.ApiSign
import Verif.CRef.ApiConst
import Verif.Contract.Props

/-! # Property C88: the C code and the contracts -/

namespace Verif.CRef
open Verif Verif.Hash Verif.Ring Verif.Falcon Verif.Contract Verif.Packing Verif.CRef.CodecSpec

/-- The hash of the contract that belongs to a variant: `ZKNOX_ethfalcon` (Keccak) or `ZKNOX_falcon` (SHAKE256). -/
def contractHash (eth : Bool) : Bytes → Bytes → Nat → Option (List Nat) := if eth then Hash.Sol.hashToPointEVM Keccak256 else Hash.Sol.hashToPointNIST

/-- 512 words of 16 bits, packed 16 to a 256-bit word as the contracts expect them. -/
def packed (ws : List Nat) : List Nat := solCompact (asMem ws (fun _ => 0))

theorem contract_hash (eth : Bool) (nonce m : Bytes) (hb : IsBytes nonce) (hm : IsBytes m) (hl : eth = true → nonce.length + m.length ≤ 4096) (c : List Nat) :
    Hashes eth (nonce ++ m) c ↔ ∃ fuel, contractHash eth nonce m fuel = some c := by
  unfold Hashes contractHash
  cases eth with
  | true =>
    have h : (nonce ++ m).length ≤ 4096 := by rw [List.length_append]; exact hl rfl
    simp only [if_true, h]
    rw [Hash.evm_iff Keccak256_length Keccak256_bytes]
  | false =>
    simp only [Bool.false_eq_true, if_false]
    exact (Hash.nist_iff nonce m hb hm c).symm

theorem redN_cast (h : List Nat) (hh : NTT.Poly512 h) : redN (List.map (fun x : ℕ => (x : ℤ)) h) = h := by
  unfold redN
  rw [List.map_map]
  conv_rhs => rw [← List.map_id h]
  refine List.map_congr_left fun x hx => ?_
  have := hh.2 x hx
  simp only [Function.comp_apply, id]
  omega

theorem zq_cast (h : List Nat) : zq (List.map (fun x : ℕ => (x : ℤ)) h) = NTT.toZ 12289 h := by
  unfold zq NTT.toZ
  rw [List.map_map]
  refine List.map_congr_left fun x _ => ?_
  simp

theorem value16_mod (w : Nat) (h : w < 12289) : ((value16 w : ℤ) : ZMod 12289) = (w : ZMod 12289) := by
  have hq : ((12289 : ℤ) : ZMod 12289) = 0 := by decide
  unfold value16
  split
  · push_cast; ring
  · push_cast
    push_cast at hq
    rw [hq, sub_zero]

/-- The packed words of a key hold the key. -/
theorem holds_packed (h t : List Nat) (hh : NTT.Poly512 h) (ht : NTT.IsTransform h t) : (packed t).length = 32 ∧ HoldsKey (packed t) h := by
  obtain ⟨a, _, b⟩ := fields_solCompact t ht.1.1 fun x hx => by have := ht.1.2 x hx; omega
  refine ⟨a, hh, ?_⟩
  unfold packed
  rw [b]
  have hmod : t.map (· % 12289) = t := by
    conv_rhs => rw [← List.map_id t]
    exact List.map_congr_left fun y hy => Nat.mod_eq_of_lt (ht.1.2 y hy)
  rw [hmod]
  exact ht

/-- **C88**: let the C code accept a signed message whose words are all below 12289 (what the C signer writes), with the norm strictly below the bound, and let nonce and message be at most 4096 bytes
in the Keccak variant.  Then the contract, given the same nonce, message, words and public key, accepts. -/
theorem C88_contract_accepts (eth : Bool) (fmp : Nat) (nonce m : Bytes) (h t ws hm : List Nat) (hn : nonce.length = 40) (hb : IsBytes nonce) (hbm : IsBytes m)
    (hlen : eth = true → 40 + m.length ≤ 4096) (hh : NTT.Poly512 h) (ht : NTT.IsTransform h t) (hwl : ws.length = 512) (hw : ∀ w ∈ ws, w < 12289) (hc : Hashes eth (nonce ++ m) hm)
    (ho : ∃ fuel, signOpen16 eth fuel ([4, 1] ++ nonce ++ m ++ 0x29 :: be16 ws) (9 :: be16 t) = .done m)
    (hstrict : ∀ s1 : List ℤ, s1.length = 512 → (∀ x ∈ s1, -6144 ≤ x ∧ x ≤ 6144) →
      List.zipWith (· + ·) (zq s1) (negMul 512 (zq (ws.map value16)) (NTT.toZ 12289 h)) = NTT.toZ 12289 hm → normSq s1 + normSq (ws.map value16) ≠ 34034726) :
    ∃ fuel, Contract.verify (contractHash eth) fmp m nonce (packed ws) (packed t) fuel = some (.ok true) := by
  have hpk : IsKey16 h (9 :: be16 t) := ⟨t, hh, ht, rfl⟩
  have kb : IsBytes (9 :: be16 t) := isBytes_cons.2 ⟨by norm_num, be16_bytes _ fun w hw => by have := ht.1.2 w hw; omega⟩
  have kl : (9 :: be16 t).length = 1025 := by rw [List.length_cons, be16_length, ht.1.1]
  have hsm : IsBytes ([4, 1] ++ nonce ++ m ++ 0x29 :: be16 ws) :=
    isBytes_append.2 ⟨isBytes_append.2 ⟨isBytes_append.2 ⟨by unfold IsBytes; decide, hb⟩, hbm⟩, isBytes_cons.2 ⟨by decide, be16_bytes _ fun w hw' => by have := hw w hw'; omega⟩⟩
  rw [C81_open16 _ _ _ _ hsm kb kl] at ho
  obtain ⟨k, hk, n2, ws2, c2, p1, p2, p3, p4, p5, p6⟩ := ho
  obtain ⟨q1, q2⟩ := parts_unique hn p1 rfl p2
  have q3 := be16_inj (fun w hw' => by have := hw w hw'; omega) (fun v hv => by have := p4 v hv; unfold Word16 at this; omega) q2
  rw [← q1] at p5
  rw [← q3, key16_unique hk hpk, hashes_unique p5 hc] at p6
  obtain ⟨s1, a1, a2, a3, a4⟩ := p6
  have hne := hstrict s1 a1 a2 a3
  obtain ⟨f1, _, f2⟩ := fields_solCompact ws hwl fun x hx => by have := hw x hx; omega
  obtain ⟨k1, k2⟩ := holds_packed h t hh ht
  obtain ⟨fuel, hf⟩ := (contract_hash eth nonce m hb hbm (by rw [hn]; exact hlen) hm).1 hc
  refine ⟨fuel, ?_⟩
  replace f1 : (packed ws).length = 32 := f1
  rw [verify_ok _ fmp m nonce _ _ hm fuel hn f1 k1 hf]
  have core := C31_core fmp (List.map (fun x : ℕ => (x : ℤ)) h) s1 (ws.map value16) (packed ws) (packed t) hm (hashes_poly hc).1
    ⟨a1, by rw [List.length_map]; exact hwl, by rw [zq_cast, zq_cast]; exact a3⟩ (lt_of_le_of_ne (by exact_mod_cast a4) hne) f1 k1 (by
      unfold packed
      rw [f2]
      unfold NTT.toZ zq
      rw [List.map_map]
      exact List.map_congr_left fun w hw' => (value16_mod w (hw w hw')).symm) (by rw [redN_cast h hh]; exact k2)
  rw [core]

/-- **C88 has no converse**: for every public key without a zero value and every message with a hash, some words are accepted by the contract and refused by the C code. -/
theorem C88_converse_false (eth : Bool) (fmp : Nat) (nonce m : Bytes) (h t hm : List Nat) (hn : nonce.length = 40) (hb : IsBytes nonce) (hbm : IsBytes m)
    (hlen : eth = true → 40 + m.length ≤ 4096) (hh : NTT.Poly512 h) (ht : NTT.IsTransform h t) (h0 : ∀ x ∈ t, x ≠ 0) (hc : Hashes eth (nonce ++ m) hm) :
    ∃ ws : List Nat, ws.length = 512 ∧ (∀ w ∈ ws, w < 12289) ∧ (∃ fuel, Contract.verify (contractHash eth) fmp m nonce (packed ws) (packed t) fuel = some (.ok true)) ∧
      ¬ ∃ fuel, signOpen16 eth fuel ([4, 1] ++ nonce ++ m ++ 0x29 :: be16 ws) (9 :: be16 t) = .done m := by
  obtain ⟨k1, k2⟩ := holds_packed h t hh ht
  have hf : fields (packed t) = t := (fields_solCompact t ht.1.1 fun x hx => by have := ht.1.2 x hx; omega).2.2
  have hp := hashes_poly hc
  obtain ⟨ws, p, hs, hv, hpr, he⟩ := steer (packed t) h hm k2 (by
    rw [hf]
    intro x hx
    rw [Nat.mod_eq_of_lt (ht.1.2 x hx)]
    exact h0 x hx) hp 6144 (by norm_num)
  obtain ⟨g1, _, g3⟩ := fields_solCompact ws hs.1 (fun x hx => by have := hs.2 x hx; omega)
  obtain ⟨fuel, hf⟩ := (contract_hash eth nonce m hb hbm (by rw [hn]; exact hlen) hm).1 hc
  refine ⟨ws, hs.1, hs.2, ⟨fuel, ?_⟩, ?_⟩
  · replace g1 : (packed ws).length = 32 := g1
    rw [verify_ok _ fmp m nonce _ _ hm fuel hn g1 k1 hf]
    have : falconCore fmp (packed ws) (packed t) hm = true := by
      rw [C30_accepts_iff fmp _ (packed t) hm h p g1 k1 hp.1 k2 (by unfold packed; rw [g3]; exact hpr), diff_zero hm p hp.1 (by rw [hpr.1, hs.1]) (fun i hi => by rw [he i hi])]
      norm_num
    rw [this]
  · have kb : IsBytes (9 :: be16 t) := isBytes_cons.2 ⟨by norm_num, be16_bytes _ fun w hw => by have := ht.1.2 w hw; omega⟩
    have kl : (9 :: be16 t).length = 1025 := by rw [List.length_cons, be16_length, ht.1.1]
    have hsm : IsBytes ([4, 1] ++ nonce ++ m ++ 0x29 :: be16 ws) :=
      isBytes_append.2 ⟨isBytes_append.2 ⟨isBytes_append.2 ⟨by unfold IsBytes; decide, hb⟩, hbm⟩, isBytes_cons.2 ⟨by decide, be16_bytes _ fun w hw' => by have := hs.2 w hw'; omega⟩⟩
    rw [C81_open16 _ _ _ _ hsm kb kl]
    rintro ⟨k, hk, n2, ws2, c2, p1, p2, p3, p4, p5, s1, _, _, _, p6⟩
    obtain ⟨_, q2⟩ := parts_unique hn p1 rfl p2
    have q3 := be16_inj (fun w hw' => by have := hs.2 w hw'; omega) (fun v hv => by have := p4 v hv; unfold Word16 at this; omega) q2
    rw [← q3] at p6
    have hm2 : (-6145 : ℤ) ∈ ws.map value16 := List.mem_map.2 ⟨6144, hv, by decide⟩
    have h1 := sq_le_normSq _ _ hm2
    have h2 := normSq_nonneg s1
    have h3 : normSq s1 + normSq (ws.map value16) ≤ (34034726 : ℤ) := by exact_mod_cast p6
    norm_num at h1
    linarith

end Verif.CRef
