import Verif.CRef.KeccakPerm
import Verif.Keccak.Sponge

/-! # Lemmas: `keccak_update` and `keccak_final` are the sponge -/

namespace Verif.CRef

open Verif.Keccak.Spec (Lane bytesToLanes lanesToBytes absorbBlocks inject F)
open Verif.Keccak (list25 tail tail_length getD_append_l getD_append_r getD_replicate_zero bytesToLanes_congr absorbBlocks_block absorbBlocks_congr absorbBlocks_head head_append_tail)

theorem lane_bytes (b : Bytes) (i : Nat) (hi : i < 25) :
    lane (bytesToLanes b) i = BitVec.ofNat 64 ((List.range 8).foldl (fun a k => a + b.getD (8 * i + k) 0 * 256 ^ k) 0) := by
  unfold lane Keccak.Spec.bytesToLanes
  rw [List.getD_eq_getElem?_getD, List.getElem?_map, List.getElem?_range hi]
  rfl

theorem getD_take_of_lt (b : Bytes) (n k : Nat) (h : k < n) : (b.take n).getD k 0 = b.getD k 0 := by
  simp [List.getD_eq_getElem?_getD, List.getElem?_take_of_lt h]

theorem lane_take (b : Bytes) (i : Nat) (hi : i < 17) : lane (bytesToLanes (b.take 136)) i = lane (bytesToLanes b) i := by
  rw [lane_bytes _ _ (by omega), lane_bytes _ _ (by omega)]
  congr 1
  apply Keccak.foldl_congr'
  intro a k hk
  have hk := List.mem_range.mp hk
  rw [getD_take_of_lt _ _ _ (by omega)]

theorem lane_take_zero (b : Bytes) (i : Nat) (hi : 17 ≤ i) (h25 : i < 25) : lane (bytesToLanes (b.take 136)) i = 0#64 := by
  rw [lane_bytes _ _ h25]
  have h : ∀ k, (b.take 136).getD (8 * i + k) 0 = 0 := by
    intro k
    rw [List.getD_eq_getElem?_getD, List.getElem?_eq_none (by rw [List.length_take]; omega)]; rfl
  simp only [h, Nat.zero_mul, Nat.add_zero]
  rfl

theorem bytesToLanes_length (b : Bytes) : (bytesToLanes b).length = 25 := by simp [Keccak.Spec.bytesToLanes]

theorem processBlock_eq (h : List Lane) (hh : h.length = 25) (b : Bytes) : processBlock h b = F (inject h (b.take 136)) := by
  have key : (List.range 17).foldl (fun h i => h.set i (lane h i ^^^ lane (bytesToLanes b) i)) h = inject h (b.take 136) := by
    have e1 : ∀ i < 17, lane (bytesToLanes (b.take 136)) i = lane (bytesToLanes b) i := lane_take b
    have e2 : ∀ i, 17 ≤ i → i < 25 → lane (bytesToLanes (b.take 136)) i = 0#64 := lane_take_zero b
    unfold Keccak.Spec.inject
    have l1 := bytesToLanes_length b
    have l2 := bytesToLanes_length (b.take 136)
    generalize bytesToLanes b = B at *
    generalize bytesToLanes (b.take 136) = C at *
    obtain ⟨a0, a1, a2, a3, a4, a5, a6, a7, a8, a9, a10, a11, a12, a13, a14, a15, a16, a17, a18, a19, a20, a21, a22, a23, a24, rfl⟩ := list25 h hh
    obtain ⟨c0, c1, c2, c3, c4, c5, c6, c7, c8, c9, c10, c11, c12, c13, c14, c15, c16, c17, c18, c19, c20, c21, c22, c23, c24, rfl⟩ := list25 C l2
    have g0 := e1 0 (by omega)
    have g1 := e1 1 (by omega)
    have g2 := e1 2 (by omega)
    have g3 := e1 3 (by omega)
    have g4 := e1 4 (by omega)
    have g5 := e1 5 (by omega)
    have g6 := e1 6 (by omega)
    have g7 := e1 7 (by omega)
    have g8 := e1 8 (by omega)
    have g9 := e1 9 (by omega)
    have g10 := e1 10 (by omega)
    have g11 := e1 11 (by omega)
    have g12 := e1 12 (by omega)
    have g13 := e1 13 (by omega)
    have g14 := e1 14 (by omega)
    have g15 := e1 15 (by omega)
    have g16 := e1 16 (by omega)
    have g17 := e2 17 (by omega) (by omega)
    have g18 := e2 18 (by omega) (by omega)
    have g19 := e2 19 (by omega) (by omega)
    have g20 := e2 20 (by omega) (by omega)
    have g21 := e2 21 (by omega) (by omega)
    have g22 := e2 22 (by omega) (by omega)
    have g23 := e2 23 (by omega) (by omega)
    have g24 := e2 24 (by omega) (by omega)
    clear e1 e2
    simp only [lane, List.getD_cons_zero, List.getD_cons_succ] at g0 g1 g2 g3 g4 g5 g6 g7 g8 g9 g10 g11 g12 g13 g14 g15 g16 g17 g18 g19 g20 g21 g22 g23 g24
    simp only [List.range, List.range.loop, List.foldl, lane, List.getD_cons_zero, List.getD_cons_succ, List.set, List.zipWith,
      ← g0, ← g1, ← g2, ← g3, ← g4, ← g5, ← g6, ← g7, ← g8, ← g9, ← g10, ← g11, ← g12, ← g13, ← g14, ← g15, ← g16, g17, g18, g19, g20, g21, g22, g23, g24, BitVec.xor_zero]
  unfold processBlock
  rw [key, sha3Permutation_eq _ (by simp [Keccak.Spec.inject, hh, bytesToLanes_length])]

/-- The context has absorbed the message `m`. -/
structure Absorbed (m : Bytes) (c : Sha3) : Prop where
  hash : c.hash = absorbBlocks F 136 m
  len : c.message.length = 192
  rest : c.rest = m.length % 136
  buf : c.message.take c.rest = tail 136 m

theorem absorbed_len (m : Bytes) : (absorbBlocks F 136 m).length = 25 := Keccak.absorbBlocks_length (fun l _ => F_length l) m

theorem blit_length (b : Bytes) (off : Nat) (d : Bytes) (h : off + d.length ≤ b.length) : (blit b off d).length = b.length := by
  simp [blit]; omega

theorem blit_take (b : Bytes) (off : Nat) (d : Bytes) (h : off + d.length ≤ b.length) : (blit b off d).take (off + d.length) = b.take off ++ d := by
  unfold blit
  rw [List.take_append_of_le_length (by simp; omega), List.take_of_length_le (by simp; omega)]

theorem take_split (d : Bytes) (n : Nat) : d = d.take n ++ d.drop n := (List.take_append_drop _ _).symm

theorem tail_small (m d : Bytes) (h : m.length % 136 + d.length < 136) :
    tail 136 (m ++ d) = tail 136 m ++ d ∧ absorbBlocks F 136 (m ++ d) = absorbBlocks F 136 m := by
  have hdiv : (m ++ d).length / 136 = m.length / 136 := by simp; omega
  constructor
  · unfold Keccak.tail
    rw [hdiv, List.drop_append_of_le_length (by omega)]
  · apply absorbBlocks_congr
    · exact hdiv
    · rw [hdiv, List.take_append_of_le_length (by omega)]

theorem tail_full (m d : Bytes) (h : m.length % 136 + d.length = 136) :
    tail 136 (m ++ d) = [] ∧ absorbBlocks F 136 (m ++ d) = F (inject (absorbBlocks F 136 m) (tail 136 m ++ d)) := by
  constructor
  · apply List.eq_nil_of_length_eq_zero
    rw [tail_length]; simp; omega
  · have e : m ++ d = m.take (136 * (m.length / 136)) ++ (tail 136 m ++ d) := by rw [← List.append_assoc, head_append_tail]
    conv => lhs; rw [e]
    rw [absorbBlocks_block (by decide) _ (m.length / 136) _ (by rw [List.length_take]; omega) (by rw [List.length_append, tail_length]; omega), absorbBlocks_head (by decide)]

theorem updateLoop_ok (al : Bool) (fuel : Nat) (c : Sha3) (m msg : Bytes) (hm : m.length % 136 = 0) (hc : c.hash = absorbBlocks F 136 m) (hl : c.message.length = 192)
    (hf : msg.length < fuel) (hr : c.rest = (m ++ msg).length % 136) : Absorbed (m ++ msg) (updateLoop al fuel c msg) := by
  induction fuel generalizing c m msg with
  | zero => omega
  | succ fuel ih =>
    unfold updateLoop
    by_cases h : msg.length ≥ 136
    · rw [if_pos h]
      dsimp only
      have hb : (msg.take 136).length = 136 := by rw [List.length_take]; omega
      have e : m ++ msg = (m ++ msg.take 136) ++ msg.drop 136 := by rw [List.append_assoc, List.take_append_drop]
      have hbt : (blit c.message 0 (msg.take 136)).take 136 = msg.take 136 := by
        have := blit_take c.message 0 (msg.take 136) (by omega)
        rw [hb] at this
        rw [Nat.zero_add, List.take_zero, List.nil_append] at this
        exact this
      have ht0 : tail 136 m = [] := List.eq_nil_of_length_eq_zero (by rw [tail_length]; exact hm)
      rw [e]
      have key : processBlock c.hash (if al = true then msg.take 136 else if al = true then c.message else blit c.message 0 (msg.take 136)) = absorbBlocks F 136 (m ++ msg.take 136) := by
        rw [processBlock_eq _ (by rw [hc]; exact absorbed_len m), (tail_full m (msg.take 136) (by omega)).2, hc, ht0, List.nil_append]
        congr 2
        cases al
        · exact hbt
        · rw [if_pos rfl]; exact List.take_of_length_le (by rw [List.length_take]; omega)
      refine ih ⟨processBlock c.hash (if al = true then msg.take 136 else if al = true then c.message else blit c.message 0 (msg.take 136)), if al = true then c.message else blit c.message 0 (msg.take 136), c.rest⟩ (m ++ msg.take 136) (msg.drop 136) (by simp only [List.length_append, hb]; omega) (by simp only []; exact key) ?_ (by rw [List.length_drop]; omega) ?_
      · show (if al = true then c.message else blit c.message 0 (msg.take 136)).length = 192
        split
        · exact hl
        · rw [blit_length _ _ _ (by omega), hl]
      · show c.rest = _
        rw [hr, ← e]
    · rw [if_neg h]
      have ht := tail_small m msg (by omega)
      have ht0 : tail 136 m = [] := List.eq_nil_of_length_eq_zero (by rw [tail_length]; exact hm)
      have hrest : c.rest = msg.length := by rw [hr]; simp; omega
      by_cases h0 : msg.length ≠ 0
      · rw [if_pos h0]
        refine ⟨by rw [ht.2]; exact hc, by show (blit _ _ _).length = _; rw [blit_length _ _ _ (by omega), hl], hr, ?_⟩
        show (blit c.message 0 msg).take c.rest = _
        have := blit_take c.message 0 msg (by omega)
        rw [Nat.zero_add] at this
        rw [hrest, this, ht.1, ht0]
        simp
      · rw [if_neg h0]
        have : msg = [] := List.eq_nil_of_length_eq_zero (by omega)
        subst this
        rw [List.append_nil] at *
        refine ⟨hc, hl, hr, ?_⟩
        rw [ht0, hrest]; rfl

theorem update_ok (al : Bool) (m msg : Bytes) (c : Sha3) (hc : Absorbed m c) (hs : msg.length < 65536) : Absorbed (m ++ msg) (keccakUpdate al c msg) := by
  unfold keccakUpdate
  dsimp only
  rw [Nat.mod_eq_of_lt hs, List.take_length]
  have hlt : m.length % 136 < 136 := Nat.mod_lt _ (by decide)
  by_cases hi : c.rest ≠ 0
  · rw [if_pos hi]
    by_cases hs2 : msg.length < 136 - c.rest
    · simp only [hs2, if_true, List.take_length]
      have hrm := hc.rest
      have ht := tail_small m msg (by omega)
      have hrr : (c.rest + msg.length) % 136 = c.rest + msg.length := Nat.mod_eq_of_lt (by omega)
      have hlen := hc.len
      refine ⟨by rw [ht.2]; exact hc.hash, by show (blit _ _ _).length = _; rw [blit_length _ _ _ (by omega), hc.len], ?_, ?_⟩
      · show (c.rest + msg.length) % 136 = _
        rw [hrm]; simp
      · show (blit c.message c.rest msg).take ((c.rest + msg.length) % 136) = _
        rw [hrr, blit_take _ _ _ (by omega), hc.buf, ht.1]
    · simp only [hs2, if_false]
      have hrm := hc.rest
      have hlen := hc.len
      have hb : (msg.take (136 - c.rest)).length = 136 - c.rest := by rw [List.length_take]; omega
      have e : m ++ msg = (m ++ msg.take (136 - c.rest)) ++ msg.drop (136 - c.rest) := by rw [List.append_assoc, List.take_append_drop]
      rw [e]
      have key : processBlock c.hash (blit c.message c.rest (msg.take (136 - c.rest))) = absorbBlocks F 136 (m ++ msg.take (136 - c.rest)) := by
        have := blit_take c.message c.rest (msg.take (136 - c.rest)) (by omega)
        rw [hb, show c.rest + (136 - c.rest) = 136 by omega] at this
        rw [processBlock_eq _ (by rw [hc.hash]; exact absorbed_len m), this, (tail_full m (msg.take (136 - c.rest)) (by omega)).2, hc.hash, hc.buf]
      refine updateLoop_ok al _ ⟨processBlock c.hash (blit c.message c.rest (msg.take (136 - c.rest))), blit c.message c.rest (msg.take (136 - c.rest)), (c.rest + msg.length) % 136⟩ (m ++ msg.take (136 - c.rest)) (msg.drop (136 - c.rest)) (by simp only [List.length_append, hb]; omega) (by simp only []; exact key) ?_ (by rw [List.length_drop]; omega) ?_
      · show (blit _ _ _).length = _
        rw [blit_length _ _ _ (by omega), hlen]
      · show (c.rest + msg.length) % 136 = _
        rw [← e, hrm]; simp
  · rw [if_neg hi]
    have hrm := hc.rest
    refine updateLoop_ok al _ _ _ _ (by omega) hc.hash hc.len (by omega) ?_
    show (c.rest + msg.length) % 136 = _
    rw [hrm]; simp

theorem init_ok : Absorbed [] keccakInit := ⟨rfl, List.length_replicate, rfl, rfl⟩

theorem pad_length (m : Bytes) : (Keccak.Spec.pad 0x01 136 m.length).length = 136 - m.length % 136 := by
  have hlt : m.length % 136 < 136 := Nat.mod_lt _ (by decide)
  unfold Keccak.Spec.pad; dsimp only; split
  · simp; omega
  · simp; omega

theorem final_ok (m : Bytes) (c : Sha3) (hc : Absorbed m c) : keccakFinal c = Keccak.Spec.spongeOut F 136 0x01 m 0 32 := by
  have hlt : m.length % 136 < 136 := Nat.mod_lt _ (by decide)
  have hrm := hc.rest
  have hlen := hc.len
  have hbuf := hc.buf
  have htl : (tail 136 m).length = m.length % 136 := tail_length m
  have hfin : processBlock c.hash (((blit c.message c.rest (List.replicate (136 - c.rest) 0)).modify c.rest (· ||| 0x01)).modify 135 (· ||| 0x80)) =
      absorbBlocks F 136 (m ++ Keccak.Spec.pad 0x01 136 m.length) := by
    rw [processBlock_eq _ (by rw [hc.hash]; exact absorbed_len m), (tail_full m _ (by rw [pad_length]; omega)).2, hc.hash]
    congr 2
    apply List.ext_getElem?
    intro k
    by_cases hk : k < 136
    · rw [List.getElem?_take_of_lt hk, List.getElem?_modify, List.getElem?_modify]
      unfold blit
      rw [hbuf, List.getElem?_append_left (by simp; omega)]
      by_cases h1 : k < m.length % 136
      · have n1 : ¬ 135 = k := by omega
        have n2 : ¬ c.rest = k := by omega
        rw [List.getElem?_append_left (by omega), List.getElem?_append_left (by omega)]
        simp only [n1, n2, if_false, id_map']
      · rw [List.getElem?_append_right (by omega), List.getElem?_append_right (by omega), htl, ← hrm]
        unfold Keccak.Spec.pad
        dsimp only
        rw [← hrm, List.getElem?_replicate, if_pos (by omega)]
        by_cases h2 : 136 - c.rest = 1
        · have n1 : 135 = k := by omega
          have n2 : c.rest = k := by omega
          rw [if_pos h2, show k - c.rest = 0 by omega]
          simp only [n1, n2, if_true]
          rfl
        · rw [if_neg h2]
          by_cases h3 : k = c.rest
          · have n1 : ¬ 135 = k := by omega
            rw [show k - c.rest = 0 by omega]
            simp only [n1, h3.symm, if_true, if_false]
            rfl
          · have n2 : ¬ c.rest = k := by omega
            obtain ⟨j, hj⟩ : ∃ j, k - c.rest = j + 1 := ⟨k - c.rest - 1, by omega⟩
            rw [hj, List.append_assoc, List.cons_append, List.nil_append, List.getElem?_cons_succ]
            by_cases h4 : k = 135
            · have n1 : 135 = k := by omega
              rw [List.getElem?_append_right (by rw [List.length_replicate]; omega), List.length_replicate, show j - (136 - c.rest - 2) = 0 by omega]
              simp only [n1, n2, if_true, if_false]
              rfl
            · have n1 : ¬ 135 = k := by omega
              rw [List.getElem?_append_left (by rw [List.length_replicate]; omega), List.getElem?_replicate, if_pos (by omega)]
              simp only [n1, n2, if_false]
              rfl
    · rw [List.getElem?_eq_none (by rw [List.length_take]; omega), List.getElem?_eq_none]
      rw [List.length_append, htl, pad_length]; omega
  unfold keccakFinal
  dsimp only
  rw [hfin]
  have hl : (lanesToBytes (absorbBlocks F 136 (m ++ Keccak.Spec.pad 0x01 136 m.length))).length = 200 := by
    rw [Keccak.lanesToBytes_length, absorbed_len]
  have := Keccak.slice_eq (lanesToBytes (absorbBlocks F 136 (m ++ Keccak.Spec.pad 0x01 136 m.length))) 0 32 (by omega)
  rw [List.drop_zero] at this
  rw [this]
  unfold Keccak.Spec.spongeOut Keccak.Spec.spongeByte
  apply List.map_congr_left
  intro j hj
  have hj := List.mem_range.mp hj
  rw [show (0 + j) / 136 = 0 by omega, show (0 + j) % 136 = 0 + j by omega]
  rfl

end Verif.CRef
