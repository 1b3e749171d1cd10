import Verif.CRef.ApiProps

/-! # Properties C82, C83: long messages, malleability -/

namespace Verif.CRef
open Verif Verif.Hash Verif.Falcon Verif.Codec.Spec Verif.CRef.CodecSpec

/-! ## Uniqueness of the parts -/

theorem be16_inj {a b : List Nat} (ha : ∀ w ∈ a, w < 65536) (hb : ∀ w ∈ b, w < 65536) (h : be16 a = be16 b) : a = b := by
  induction a generalizing b with
  | nil =>
    cases b with
    | nil => rfl
    | cons y b => simp [be16] at h
  | cons x a ih =>
    cases b with
    | nil => simp [be16] at h
    | cons y b =>
      have e : ∀ z (l : List Nat), be16 (z :: l) = (z / 256) :: (z % 256) :: be16 l := fun z l => rfl
      rw [e, e] at h
      obtain ⟨h1, h⟩ := List.cons.inj h
      obtain ⟨h2, h⟩ := List.cons.inj h
      rw [ih (fun w hw => ha w (by simp [hw])) (fun w hw => hb w (by simp [hw])) h, show x = y by omega]

theorem parts_unique {a b n n' m e e' : Bytes} {x : Nat} (hn : n.length = 40) (hn' : n'.length = 40) (hab : a.length = b.length)
    (h : a ++ n ++ m ++ x :: e = b ++ n' ++ m ++ x :: e') : n = n' ∧ e = e' := by
  simp only [List.append_assoc] at h
  obtain ⟨_, h⟩ := List.append_inj h hab
  obtain ⟨h1, h⟩ := List.append_inj h (by rw [hn, hn'])
  obtain ⟨_, h⟩ := List.append_inj h rfl
  exact ⟨h1, (List.cons.inj h).2⟩

theorem key16_unique {h h' : List Nat} {pk : Bytes} (hk : IsKey16 h pk) (hk' : IsKey16 h' pk) : h = h' := by
  obtain ⟨t, h1, h2, h3⟩ := hk
  obtain ⟨t', h1', h2', h3'⟩ := hk'
  obtain rfl : t = t' := be16_inj (fun w hw => by have := h2.1.2 w hw; omega) (fun w hw => by have := h2'.1.2 w hw; omega) (List.cons.inj (h3.symm.trans h3')).2
  have hmod : t.map (· % 12289) = t := by
    conv_rhs => rw [← List.map_id t]
    exact List.map_congr_left fun y hy => Nat.mod_eq_of_lt (h2.1.2 y hy)
  obtain ⟨k, _, hu⟩ := NTT.C33_every_key t h2.1.1
  rw [hmod] at hu
  rw [hu h ⟨h1, h2⟩, hu h' ⟨h1', h2'⟩]

/-! ## C82: long messages -/

/-- What the signer hashes: the nonce and the message are injected separately. -/
def HashesSigned (eth : Bool) (nonce m : Bytes) (hm : List Nat) : Prop :=
  if eth then IsPoint (streamByte Keccak256 (if nonce.length + m.length ≤ 4096 then nonce ++ m else nonce)) 512 hm else IsPoint (shakeByte (nonce ++ m)) 512 hm

theorem hash_two (eth : Bool) (nonce m : Bytes) (hn : nonce.length = 40) (hb : IsBytes nonce) (hb2 : IsBytes m) (hm : List Nat) :
    (∃ fuel, hashPieces eth [nonce, m] fuel = some hm) ↔ HashesSigned eth nonce m hm := by
  rw [hashPieces_iff eth [nonce, m] (by
    intro p hp
    simp only [List.mem_cons, List.not_mem_nil, or_false] at hp
    rcases hp with rfl | rfl <;> assumption)]
  have hk : kept [] [nonce, m] = if nonce.length + m.length ≤ 4096 then nonce ++ m else nonce := by
    unfold kept
    rw [if_pos (by simp [hn]), List.nil_append]
    unfold kept kept
    rfl
  unfold HashesSigned
  rw [hk]
  simp only [List.flatten_cons, List.flatten_nil, List.append_nil]

/-- **C82**, agreement: the signer and the verifier hash the same unless the Keccak variant meets nonce and message of more than 4096 bytes. -/
theorem C82_agree (eth : Bool) (nonce m : Bytes) (h : eth = true → nonce.length + m.length ≤ 4096) (hm : List Nat) : HashesSigned eth nonce m hm ↔ Hashes eth (nonce ++ m) hm := by
  unfold HashesSigned Hashes
  cases eth with
  | true =>
    have h := h rfl
    simp only [if_true, List.length_append, h]
  | false => simp only [Bool.false_eq_true, if_false]

/-- **C82 is false for long messages (signer)**: the point the signer uses for a long message does not depend on the message. -/
theorem C82_signer_false (nonce m m' : Bytes) (h : 4096 < nonce.length + m.length) (h' : 4096 < nonce.length + m'.length) (hm : List Nat) :
    HashesSigned true nonce m hm ↔ HashesSigned true nonce m' hm := by
  unfold HashesSigned
  have c1 : ¬ nonce.length + m.length ≤ 4096 := by omega
  have c2 : ¬ nonce.length + m'.length ≤ 4096 := by omega
  simp only [if_true, c1, c2, if_false]

/-- **C82 is false for long messages (verifier)**: one accepted signed message of more than 4096 bytes gives an accepted signed message for every other long message and nonce, with the same
signature bytes. -/
theorem C82_verifier_false (pk m m' nonce nonce' : Bytes) (sig : Bytes) (hp : IsBytes pk) (hl : pk.length = 1025) (hn : nonce.length = 40) (hn' : nonce'.length = 40)
    (hb : IsBytes ([4, 1] ++ nonce ++ m ++ 0x29 :: sig)) (hb' : IsBytes ([4, 1] ++ nonce' ++ m' ++ 0x29 :: sig)) (h : 4096 < 40 + m.length) (h' : 4096 < 40 + m'.length)
    (ho : ∃ fuel, signOpen16 true fuel ([4, 1] ++ nonce ++ m ++ 0x29 :: sig) pk = .done m) :
    ∃ fuel, signOpen16 true fuel ([4, 1] ++ nonce' ++ m' ++ 0x29 :: sig) pk = .done m' := by
  rw [C81_open16 _ _ _ _ hb hp hl] at ho
  rw [C81_open16 _ _ _ _ hb' hp hl]
  obtain ⟨k, hk, n2, ws, hm, p1, p2, p3, p4, p5, p6⟩ := ho
  obtain ⟨q1, q2⟩ := parts_unique hn p1 rfl p2
  have c1 : ¬ (n2 ++ m).length ≤ 4096 := by rw [List.length_append]; omega
  have c2 : ¬ (nonce' ++ m').length ≤ 4096 := by rw [List.length_append]; omega
  refine ⟨k, hk, nonce', ws, hm, hn', by rw [q2], p3, p4, ?_, p6⟩
  unfold Hashes at p5 ⊢
  simp only [if_true, c1, if_false] at p5
  simp only [if_true, c2, if_false]
  exact p5

/-! ## C83: malleability of the 16-bit format, uniqueness in the NIST format -/

/-- **C83 is false of the 16-bit format**: in every accepted signed message any word from 2047 to 12288 (a negative coefficient) may be replaced by the word 53247 larger; the result is a different
signed message, accepted for the same message and key. -/
theorem C83_malleable (eth : Bool) (pk m nonce : Bytes) (pre post : List Nat) (w : Nat) (hp : IsBytes pk) (hl : pk.length = 1025) (hn : nonce.length = 40)
    (hb : IsBytes (nonce ++ m)) (hl2 : (pre ++ w :: post).length = 512) (hw : 2047 ≤ w ∧ w < 12289) (hpp : ∀ v ∈ pre ++ post, v < 65536)
    (ho : ∃ fuel, signOpen16 eth fuel ([4, 1] ++ nonce ++ m ++ 0x29 :: be16 (pre ++ w :: post)) pk = .done m) :
    [4, 1] ++ nonce ++ m ++ 0x29 :: be16 (pre ++ w :: post) ≠ [4, 1] ++ nonce ++ m ++ 0x29 :: be16 (pre ++ (w + 53247) :: post) ∧
    ∃ fuel, signOpen16 eth fuel ([4, 1] ++ nonce ++ m ++ 0x29 :: be16 (pre ++ (w + 53247) :: post)) pk = .done m := by
  rw [isBytes_append] at hb
  have hall : ∀ u, u < 65536 → ∀ v ∈ pre ++ u :: post, v < 65536 := by
    intro u hu v hv
    rcases List.mem_append.1 hv with hv | hv
    · exact hpp v (List.mem_append_left _ hv)
    · rcases List.mem_cons.1 hv with rfl | hv
      · exact hu
      · exact hpp v (List.mem_append_right _ hv)
  have hbs : ∀ u, u < 65536 → IsBytes ([4, 1] ++ nonce ++ m ++ 0x29 :: be16 (pre ++ u :: post)) := by
    intro u hu
    exact isBytes_append.2 ⟨isBytes_append.2 ⟨isBytes_append.2 ⟨by unfold IsBytes; decide, hb.1⟩, hb.2⟩, isBytes_cons.2 ⟨by decide, be16_bytes _ (hall u hu)⟩⟩
  rw [C81_open16 _ _ _ _ (hbs w (by omega)) hp hl] at ho
  obtain ⟨k, hk, n2, ws, hm, p1, p2, p3, p4, p5, p6⟩ := ho
  obtain ⟨q1, q2⟩ := parts_unique hn p1 rfl p2
  have q3 := be16_inj (hall w (by omega)) (fun v hv => by have := p4 v hv; unfold Word16 at this; omega) q2
  rw [← q1] at p5
  rw [← q3] at p4 p6
  clear q1 q2 q3 p1 p2 p3
  constructor
  · intro he
    have := be16_inj (hall w (by omega)) (hall (w + 53247) (by omega)) (parts_unique hn hn rfl he).2
    have := (List.append_inj this rfl).2
    have := (List.cons.inj this).1
    omega
  · rw [C81_open16 _ _ _ _ (hbs _ (by omega)) hp hl]
    refine ⟨k, hk, nonce, _, hm, hn, rfl, by simpa using hl2, ?_, p5, ?_⟩
    · intro v hv
      rcases List.mem_append.1 hv with hv | hv
      · exact p4 v (List.mem_append_left _ hv)
      · rcases List.mem_cons.1 hv with rfl | hv
        · exact Or.inr ⟨by omega, by omega⟩
        · exact p4 v (List.mem_append_right _ (List.mem_cons_of_mem _ hv))
    · have e : (pre ++ (w + 53247) :: post).map value16 = (pre ++ w :: post).map value16 := by
        rw [List.map_append, List.map_append, List.map_cons, List.map_cons]
        have e1 : value16 (w + 53247) = value16 w := by
          unfold value16
          rw [if_neg (by omega), if_neg (by omega), if_neg (by omega), if_pos (by omega)]
          push_cast
          ring
        rw [e1]
      rw [e]
      exact p6

theorem sameVector {sm sm' m : Bytes} {nonce : Bytes} {e e' : Bytes} {s : List Int} (he : IsBytes e) (he' : IsBytes e') (hs : IsCompressed s e) (hs' : IsCompressed s e')
    (h1 : sm = [(e.length + 1) / 256, (e.length + 1) % 256] ++ nonce ++ m ++ 0x29 :: e)
    (h2 : sm' = [(e'.length + 1) / 256, (e'.length + 1) % 256] ++ nonce ++ m ++ 0x29 :: e') : sm = sm' := by
  obtain ⟨d1, d2, d3, d5⟩ := hs
  obtain ⟨d1', d2', d3', d5'⟩ := hs'
  have a := (C79_comp_decode 9 e he s e.length).2 ⟨by rw [d1, e512], d2, d3, Nat.le_refl _, by rw [List.take_length]; exact d5⟩
  have b := (C79_comp_decode 9 e' he' s e'.length).2 ⟨by rw [d1', e512], d2', d3', Nat.le_refl _, by rw [List.take_length]; exact d5'⟩
  obtain ⟨u1, u2⟩ := C79_comp_unique 9 e e' he he' s _ _ a b
  rw [List.take_length, List.take_length] at u2
  rw [h1, h2, u2]

/-- The bytes of the nonce and of the signature vector in a signed message for `m`. -/
def noncePart (sm : Bytes) : Bytes := (sm.drop 2).take 40

/-- See `noncePart`. -/
def sigPart (m sm : Bytes) : Bytes := sm.drop (43 + m.length)

theorem parts_of {a b : Nat} {nonce m e sm : Bytes} (hn : nonce.length = 40) (h : sm = [a, b] ++ nonce ++ m ++ 0x29 :: e) : noncePart sm = nonce ∧ sigPart m sm = e := by
  unfold noncePart sigPart
  constructor
  · rw [h, List.append_assoc, List.append_assoc, show ∀ l : Bytes, ([a, b] ++ l).drop 2 = l from fun _ => rfl, List.take_append_of_le_length (by omega), List.take_of_length_le (by omega)]
  · have e1 : sm = ([a, b] ++ nonce ++ m ++ [0x29]) ++ e := by rw [h]; simp
    rw [e1, List.drop_append_of_le_length (by simp only [List.length_append, List.length_cons, List.length_nil, hn]; omega), List.drop_of_length_le, List.nil_append]
    simp only [List.length_append, List.length_cons, List.length_nil, hn]
    omega

/-- **C83**, NIST format: two accepted signed messages for one message, under any keys and in either variant, that carry the same nonce and the same vector are equal byte by byte. -/
theorem C83_unique14 (eth eth' : Bool) (sm sm' pk pk' m : Bytes) (hb : IsBytes sm) (hb' : IsBytes sm') (hp : IsBytes pk) (hp' : IsBytes pk') (hl : pk.length = 897) (hl' : pk'.length = 897)
    (ho : ∃ fuel, signOpen eth fuel sm pk = .done m) (ho' : ∃ fuel, signOpen eth' fuel sm' pk' = .done m) (hn : noncePart sm = noncePart sm')
    (hs : ∃ s, IsCompressed s (sigPart m sm) ∧ IsCompressed s (sigPart m sm')) : sm = sm' := by
  rw [C81_open14 _ _ _ _ hb hp hl] at ho
  rw [C81_open14 _ _ _ _ hb' hp' hl'] at ho'
  obtain ⟨h, _, nonce, e, s, _, n1, f1, _, _⟩ := ho
  obtain ⟨h', _, nonce', e', s', _, n1', f1', _, _⟩ := ho'
  obtain ⟨a1, a2⟩ := parts_of n1 f1
  obtain ⟨b1, b2⟩ := parts_of n1' f1'
  rw [a1, b1] at hn
  obtain ⟨v, v1, v2⟩ := hs
  rw [a2] at v1
  rw [b2] at v2
  have ge : IsBytes e := (isBytes_cons.1 (isBytes_append.1 (f1 ▸ hb)).2).2
  have ge' : IsBytes e' := (isBytes_cons.1 (isBytes_append.1 (f1' ▸ hb')).2).2
  subst hn
  exact sameVector ge ge' v1 v2 f1 f1'

end Verif.CRef
