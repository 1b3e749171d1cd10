import Verif.CRef.ApiKeys
import Verif.CRef.Recover

/-! # Property C84: signing and opening with key recovery (`epervier16.c`) -/

namespace Verif.CRef
open Verif Verif.Hash Verif.Ring Verif.Falcon Verif.Codec Verif.Codec.Spec Verif.CRef.CodecSpec

/-! ## Specification -/

/-- The pair is short, `s2` is a unit and `s1 + h·s2` is the hash. -/
def Recovers (h hm : List Nat) (s1 s2 : List Int) : Prop :=
  IsUnitPoly 512 (zq s2) ∧ normSq s1 + normSq s2 ≤ 34034726 ∧ List.zipWith (· + ·) (zq s1) (negMul 512 (NTT.toZ 12289 h) (zq s2)) = NTT.toZ 12289 hm

/-- A signed message with key recovery, `mem` being the memory behind it: length, nonce, message, header, and the bytes after the header, inside the message or behind it, are the words of `s1`,
a header and the words of `s2`; whatever follows is not looked at. -/
def SignedEp (mem : Bytes) (h : List Nat) (m sm : Bytes) : Prop :=
  ∃ nonce e w1 w2 rest hm, nonce.length = 40 ∧ e.length + 1 < 65536 ∧ sm = [(e.length + 1) / 256, (e.length + 1) % 256] ++ nonce ++ m ++ 0x29 :: e ∧
    e ++ mem = be16 w1 ++ 0x29 :: (be16 w2 ++ rest) ∧ w1.length = 512 ∧ w2.length = 512 ∧ (∀ w ∈ w1, Word16 w) ∧ (∀ w ∈ w2, Word16 w) ∧
    Hashes false (nonce ++ m) hm ∧ Recovers h hm (w1.map value16) (w2.map value16)

/-! ## Recovery -/

theorem transform_unique {h h' t : List Nat} (h1 : NTT.Poly512 h) (h2 : NTT.Poly512 h') (t1 : NTT.IsTransform h t) (t2 : NTT.IsTransform h' t) : h = h' := by
  have hmod : t.map (· % 12289) = t := by
    conv_rhs => rw [← List.map_id t]
    exact List.map_congr_left fun y hy => Nat.mod_eq_of_lt (t1.1.2 y hy)
  obtain ⟨k, _, hu⟩ := NTT.C33_every_key t t1.1.1
  rw [hmod] at hu
  rw [hu h ⟨h1, t1⟩, hu h' ⟨h2, t2⟩]

theorem same_list (t r : List Nat) (ht : t.length = 512) (hr : r.length = 512) : (List.range 512).any (fun i => decide (t[i]! ≠ r[i]!)) = false ↔ t = r := by
  rw [List.any_eq_false]
  constructor
  · intro h
    apply List.ext_getElem (by rw [ht, hr])
    intro i i1 i2
    have := h i (List.mem_range.2 (by omega))
    rw [decide_eq_true_iff, not_not, getElem!_pos t i i1, getElem!_pos r i i2] at this
    exact this
  · rintro rfl i _
    simp

theorem recover_iff (h t hm : List Nat) (s1 s2 : List Int) (hh : NTT.Poly512 h) (ht : NTT.IsTransform h t) (hc : Poly 512 hm) (h1 : Vec16 512 s1) (h2 : Vec16 512 s2) :
    ((verifyRecoverEpervier 9 hm s1 s2).2 = true ∧ (List.range 512).any (fun i => decide (t[i]! ≠ (verifyRecoverEpervier 9 hm s1 s2).1[i]!)) = false) ↔ Recovers h hm s1 s2 := by
  obtain ⟨a, b, c⟩ := C85_recover (k := 9) (by norm_num) hm s1 s2 (by rw [e512]; exact hc) (by rw [e512]; exact h1) (by rw [e512]; exact h2)
  rw [e512] at a c
  have hb : ((l2bound[9]! : ℕ) : ℤ) = 34034726 := by decide
  rw [hb] at a
  rw [b]
  generalize verifyRecoverEpervier 9 hm s1 s2 = r at *
  generalize verifyRecover 9 hm s1 s2 = v at *
  unfold Recovers
  constructor
  · rintro ⟨hv, hr⟩
    obtain ⟨c1, c2⟩ := c hv
    obtain ⟨a1, a2⟩ := a.1 hv
    obtain ⟨p, eq⟩ := (c2 v.1).2 rfl
    have htr := (transform_iff v.1 r.1 p).2 c1.symm
    rw [same_list _ _ ht.1.1 htr.1.1] at hr
    rw [← hr] at htr
    rw [transform_unique hh p ht htr]
    exact ⟨a2, a1, eq⟩
  · rintro ⟨u, n, eq⟩
    have hv := a.2 ⟨n, u⟩
    obtain ⟨c1, c2⟩ := c hv
    have e := (c2 h).1 ⟨hh, eq⟩
    refine ⟨hv, ?_⟩
    have htr := (transform_iff v.1 r.1 (by rw [← e]; exact hh)).2 c1.symm
    rw [same_list _ _ ht.1.1 htr.1.1, c1, ← e]
    exact ((transform_iff h t hh).1 ht).symm

/-! ## The public key -/

theorem keyEp_iff (pk : Bytes) (hb : IsBytes pk) (hl : pk.length = 1025) (t : List Nat) :
    (pk.getD 0 0 = 9 ∧ modqDecodeW 16 9 ((pk.drop 1).take (1025 - 1)) = .ok t) ↔ ∃ h, NTT.Poly512 h ∧ NTT.IsTransform h t ∧ pk = 9 :: be16 t := by
  obtain ⟨x, d, rfl⟩ : ∃ x d, pk = x :: d := by
    match pk, hl with
    | x :: d, _ => exact ⟨x, d, rfl⟩
  rw [isBytes_cons] at hb
  have hdl : d.length = 1024 := by simpa using hl
  have hdt : d.take (1025 - 1) = d := List.take_of_length_le (by omega)
  have hp : packedLen (2 ^ 9) 16 = 1024 := by decide
  have hdec := fun t => (C79_modq_decode 16 (Or.inr rfl) 9 d hb.2 t).1
  rw [hp] at hdec
  have hdt2 : d.take 1024 = d := hdt
  rw [hdt2] at hdec
  simp only [List.getD_cons_zero, List.drop_succ_cons, List.drop_zero, hdt]
  rw [hdec]
  constructor
  · rintro ⟨rfl, _, t1, t2, t3⟩
    rw [packing16_iff _ (fun w hw => by have := t2 w hw; omega)] at t3
    rw [e512] at t1
    have hmod : t.map (· % 12289) = t := by
      conv_rhs => rw [← List.map_id t]
      exact List.map_congr_left fun y hy => Nat.mod_eq_of_lt (t2 y hy)
    obtain ⟨h, ⟨hh, htr⟩, _⟩ := NTT.C33_every_key t t1
    rw [hmod] at htr
    exact ⟨h, hh, htr, by rw [t3]⟩
  · rintro ⟨h, hh, htr, hpk⟩
    obtain ⟨rfl, rfl⟩ := List.cons.inj hpk
    have ht := htr.1
    exact ⟨rfl, by rw [be16_length, ht.1], by rw [ht.1, e512], ht.2, (packing16_iff _ (fun w hw => by have := ht.2 w hw; omega) _).2 rfl⟩

/-! ## Opening -/

/-- What `signOpenEpervier` computes from the parts of a signed message. -/
theorem openEp_parts (fuel : Nat) (mem nonce m e pk : Bytes) (x : Nat) (t : List Nat) (hn : nonce.length = 40) (he : e.length + 1 < 65536) (hpk : pk.getD 0 0 = 9)
    (hk : modqDecodeW 16 9 ((pk.drop 1).take (1025 - 1)) = .ok t) :
    signOpenEpervier fuel mem ([(e.length + 1) / 256, (e.length + 1) % 256] ++ nonce ++ m ++ x :: e) pk =
      if x ≠ 0x29 ∨ (e ++ mem).getD 1024 0 ≠ 0x29 then .fail
      else match compDecode16 9 ((e ++ mem).take 1024) with
        | .error _ => .fail
        | .ok s1 =>
          match compDecode16 9 (((e ++ mem).drop 1025).take 1024) with
          | .error _ => .fail
          | .ok s2 =>
            match hashPieces false [nonce ++ m] fuel with
            | none => .running
            | some hm =>
              if !(verifyRecoverEpervier 9 hm s1 s2).2 then .fail
              else if (List.range 512).any (fun i => decide (t[i]! ≠ (verifyRecoverEpervier 9 hm s1 s2).1[i]!)) then .fail
              else .done m := by
  obtain ⟨sm, hsm⟩ : ∃ sm, sm = [(e.length + 1) / 256, (e.length + 1) % 256] ++ nonce ++ m ++ x :: e := ⟨_, rfl⟩
  have hlen : sm.length = 2 + 40 + m.length + (e.length + 1) := by rw [hsm]; simp [hn]; omega
  have hsig : (sm.getD 0 0 <<< 8) ||| sm.getD 1 0 = e.length + 1 := by
    have e0 : sm.getD 0 0 = (e.length + 1) / 256 := by rw [hsm]; rfl
    have e1 : sm.getD 1 0 = (e.length + 1) % 256 := by rw [hsm]; rfl
    rw [e0, e1, word_or _ _ (Nat.mod_lt _ (by norm_num))]
    omega
  have hmsg : sm.length - 2 - 40 - (e.length + 1) = m.length := by omega
  have hd2 : (sm.drop 2).take (40 + m.length) = nonce ++ m := by
    have : sm.drop 2 = nonce ++ m ++ x :: e := by rw [hsm]; rfl
    rw [this, List.take_append_of_le_length (by simp [hn]), List.take_of_length_le (by simp [hn])]
  have hd42 : (sm.drop (2 + 40)).take m.length = m := by
    have : sm.drop (2 + 40) = m ++ x :: e := by
      rw [← List.drop_drop, show sm.drop 2 = nonce ++ (m ++ x :: e) by rw [hsm]; simp, List.drop_append_of_le_length (by omega), List.drop_of_length_le (by omega), List.nil_append]
    rw [this, List.take_append_of_le_length (by omega), List.take_of_length_le (by omega)]
  have hes : (sm ++ mem).drop (2 + 40 + m.length) = x :: (e ++ mem) := by
    rw [hsm, List.append_assoc, List.drop_append_of_le_length (by simp [hn]; omega), List.drop_of_length_le (by simp [hn]; omega), List.nil_append, List.cons_append]
  rw [← hsm]
  unfold signOpenEpervier
  have c1 : ¬ (9 ≠ 0x00 + 9) := by omega
  have c2 : ¬ sm.length < 2 + 40 := by omega
  have c3 : ¬ (e.length + 1 > sm.length - 2 - 40) := by omega
  have c4 : ¬ (e.length + 1 < 1) := by omega
  have g1 : (x :: (e ++ mem)).getD 1025 0 = (e ++ mem).getD 1024 0 := List.getD_cons_succ
  have g2 : (x :: (e ++ mem)).drop (1 + 1024 + 1) = (e ++ mem).drop 1025 := List.drop_succ_cons
  have g3 : (x :: (e ++ mem)).drop 1 = e ++ mem := rfl
  have g4 : (x :: (e ++ mem)).getD 0 0 = x := rfl
  simp only [hpk, hk, hsig, hmsg, hd2, hd42, hes, g1, g2, g3, g4]
  simp only [c1, c2, c3, c4, if_false, false_or]
  rfl

/-- **C84**: `zknox_crypto_sign_open_epervier` returns 0 and the message `m` exactly when the key is a key in the 16-bit format and the input, with the memory behind it, is a signed message
for `m` whose pair recovers that key. -/
theorem C84_open (mem sm pk m : Bytes) (hb : IsBytes sm) (hmem : IsBytes mem) (hp : IsBytes pk) (hl : pk.length = 1025) :
    (∃ fuel, signOpenEpervier fuel mem sm pk = .done m) ↔ ∃ h, IsKey16 h pk ∧ SignedEp mem h m sm := by
  constructor
  · rintro ⟨fuel, h⟩
    have hpk : pk.getD 0 0 = 9 := by
      by_contra hne
      unfold signOpenEpervier at h
      rw [if_pos (by simpa using hne)] at h
      cases h
    cases hk : modqDecodeW 16 9 ((pk.drop 1).take (1025 - 1)) with
    | error y =>
      unfold signOpenEpervier at h
      rw [if_neg (by simpa using hpk), hk] at h
      cases h
    | ok t =>
      obtain ⟨key, k1, k2, k3⟩ := (keyEp_iff pk hp hl t).1 ⟨hpk, hk⟩
      by_cases c2 : sm.length < 2 + 40
      · unfold signOpenEpervier at h
        simp only [hpk, hk, c2, if_true] at h
        simp at h
      by_cases c3 : (sm.getD 0 0 <<< 8 ||| sm.getD 1 0) > sm.length - 2 - 40
      · unfold signOpenEpervier at h
        simp only [hpk, hk, c2, c3, if_true, if_false] at h
        simp at h
      by_cases c4 : (sm.getD 0 0 <<< 8 ||| sm.getD 1 0) < 1
      · unfold signOpenEpervier at h
        simp only [hpk, hk, c2, c3, c4, if_true, if_false, true_or] at h
        simp at h
      obtain ⟨nonce, m', x, e, p1, p2, p3, p4, p5, p6, p7, p8, p9⟩ := sm_split sm hb c2 _ rfl c3 c4
      rw [p3, openEp_parts fuel mem nonce m' e pk x t p1 p5 hpk hk] at h
      have hem : IsBytes (e ++ mem) := isBytes_append.2 ⟨p8, hmem⟩
      obtain ⟨d, hd⟩ : ∃ d, e ++ mem = d := ⟨_, rfl⟩
      rw [hd] at h hem
      by_cases hx : x ≠ 0x29 ∨ d.getD 1024 0 ≠ 0x29
      · rw [if_pos hx] at h; cases h
      rw [if_neg hx] at h
      rw [not_or, not_not, not_not] at hx
      obtain ⟨rfl, hx⟩ := hx
      have ht : ∀ l : Bytes, IsBytes l → ∀ n, IsBytes (l.take n) := fun l hl n y hy => hl y (List.mem_of_mem_take hy)
      have hdp : ∀ l : Bytes, IsBytes l → ∀ n, IsBytes (l.drop n) := fun l hl n y hy => hl y (List.mem_of_mem_drop hy)
      cases hs1 : compDecode16 9 (d.take 1024) with
      | error y => rw [hs1] at h; cases h
      | ok s1 =>
        rw [hs1] at h
        simp only at h
        cases hs2 : compDecode16 9 ((d.drop 1025).take 1024) with
        | error y => rw [hs2] at h; cases h
        | ok s2 =>
          rw [hs2] at h
          simp only at h
          obtain ⟨w1, r1, a1, a2, a3, rfl⟩ := ((C78_comp_decode16 9 _ (ht d hem 1024) s1).1).1 hs1
          obtain ⟨w2, r2, b1, b2, b3, rfl⟩ := ((C78_comp_decode16 9 _ (ht _ (hdp d hem 1025) 1024) s2).1).1 hs2
          rw [e512] at a2 b2
          cases hh : hashPieces false [nonce ++ m'] fuel with
          | none => rw [hh] at h; cases h
          | some hm =>
            rw [hh] at h
            simp only at h
            have hH := (hash_one false _ (isBytes_append.2 ⟨p6, p7⟩) hm).1 ⟨fuel, hh⟩
            by_cases hv : (verifyRecoverEpervier 9 hm (w1.map value16) (w2.map value16)).2 = true
            · simp only [hv, Bool.not_true, Bool.false_eq_true, if_false] at h
              cases hr : (List.range 512).any (fun i => decide (t[i]! ≠ (verifyRecoverEpervier 9 hm (w1.map value16) (w2.map value16)).1[i]!)) with
              | true => rw [hr] at h; simp at h
              | false =>
                rw [hr] at h
                simp only [Bool.false_eq_true, if_false] at h
                obtain rfl : m' = m := by simpa using h
                have key := (recover_iff key t hm _ _ k1 k2 (hashes_poly hH) (vec16_value w1 a2 a3) (vec16_value w2 b2 b3)).1 ⟨hv, hr⟩
                refine ⟨_, ⟨t, k1, k2, k3⟩, nonce, e, w1, w2, (d.drop 1025).drop 1024, hm, p1, p5, p3, ?_, a2, b2, a3, b3, hH, key⟩
                have nil : ∀ (l r : Bytes) (w : List Nat), l.take 1024 = be16 w ++ r → w.length = 512 → l.take 1024 = be16 w := by
                  intro l r w e1 e2
                  have e3 := congrArg List.length e1
                  rw [List.length_append, be16_length, e2, List.length_take] at e3
                  have : r = [] := List.eq_nil_of_length_eq_zero (by omega)
                  rw [e1, this, List.append_nil]
                have dl : 1024 < d.length := by
                  by_contra hc
                  rw [List.getD_eq_getElem?_getD, List.getElem?_eq_none (by omega)] at hx
                  simp at hx
                rw [List.getD_eq_getElem?_getD, List.getElem?_eq_getElem dl, Option.getD_some] at hx
                rw [hd, ← nil _ _ _ a1 a2, ← nil _ _ _ b1 b2, List.take_append_drop]
                conv_lhs => rw [← List.take_append_drop 1024 d, List.drop_eq_getElem_cons dl, hx]
            · simp only [hv] at h
              simp at h
  · rintro ⟨key, ⟨t, k1, k2, k3⟩, nonce, e, w1, w2, rest, hm, p1, p5, p3, p4, a2, b2, a3, b3, hH, hR⟩
    obtain ⟨hpk, hk⟩ := (keyEp_iff pk hp hl t).2 ⟨key, k1, k2, k3⟩
    rw [p3] at hb
    simp only [isBytes_append] at hb
    obtain ⟨fuel, hf⟩ := (hash_one false (nonce ++ m) (isBytes_append.2 ⟨hb.1.1.2, hb.1.2⟩) hm).2 hH
    obtain ⟨hv, hr⟩ := (recover_iff key t hm _ _ k1 k2 (hashes_poly hH) (vec16_value w1 a2 a3) (vec16_value w2 b2 b3)).2 hR
    refine ⟨fuel, ?_⟩
    rw [p3, openEp_parts fuel mem nonce m e pk 0x29 t p1 p5 hpk hk, p4]
    have l1 : (be16 w1).length = 1024 := by rw [be16_length, a2]
    have l2 : (be16 w2).length = 1024 := by rw [be16_length, b2]
    have g1 : (be16 w1 ++ 0x29 :: (be16 w2 ++ rest)).getD 1024 0 = 0x29 := by
      rw [List.getD_eq_getElem?_getD, List.getElem?_append_right (by omega), l1]
      rfl
    have g2 : (be16 w1 ++ 0x29 :: (be16 w2 ++ rest)).take 1024 = be16 w1 := by
      rw [List.take_append_of_le_length (by omega), List.take_of_length_le (by omega)]
    have g3 : ((be16 w1 ++ 0x29 :: (be16 w2 ++ rest)).drop 1025).take 1024 = be16 w2 := by
      have : (be16 w1 ++ 0x29 :: (be16 w2 ++ rest)).drop 1025 = be16 w2 ++ rest := by
        rw [show (1025 : ℕ) = 1024 + 1 from rfl, ← List.drop_drop, List.drop_append_of_le_length (by omega), (List.drop_of_length_le (by omega) : (be16 w1).drop 1024 = []), List.nil_append]
        rfl
      rw [this, List.take_append_of_le_length (by omega), List.take_of_length_le (by omega)]
    have wb : ∀ ws : List Nat, (∀ w ∈ ws, Word16 w) → IsBytes (be16 ws) := fun ws hws => be16_bytes ws fun w hw => by have := hws w hw; unfold Word16 at this; omega
    have d1 := ((C78_comp_decode16 9 (be16 w1) (wb w1 a3) (w1.map value16)).1).2 ⟨w1, [], by simp, by rw [a2, e512], a3, rfl⟩
    have d2 := ((C78_comp_decode16 9 (be16 w2) (wb w2 b3) (w2.map value16)).1).2 ⟨w2, [], by simp, by rw [b2, e512], b3, rfl⟩
    have c : ¬ ((0x29 : ℕ) ≠ 0x29 ∨ (0x29 : ℕ) ≠ 0x29) := by simp
    rw [g1, g2, g3, if_neg c, d1]
    simp only
    rw [d2]
    simp only
    rw [hf]
    simp only [hv, hr, Bool.not_true, Bool.false_eq_true, if_false]

end Verif.CRef
