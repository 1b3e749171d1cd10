import Verif.Keccak.Sponge

/-! # The contract's SHAKE256 simulates the Python SHAKE -/

namespace Verif.Keccak

attribute [local irreducible] F1600 Sol.f1600

/-- Every slot of the buffer is a byte. -/
def SmallBuf (b : Bytes) : Prop := ∀ k, b.getD k 0 < 256

theorem smallBuf_of_isBytes {b : Bytes} (h : IsBytes b) : SmallBuf b := by
  intro k
  by_cases hk : k < b.length
  · simp [hk]; exact h _ (List.getElem_mem hk)
  · simp [List.getD_eq_getElem?_getD, show b.length ≤ k by omega]

theorem smallBuf_zero (n : Nat) : SmallBuf (List.replicate n 0) := fun k => by rw [getD_replicate_zero]; decide

theorem smallBuf_modify {b : Bytes} (h : SmallBuf b) (i x : Nat) (hx : x < 256) : SmallBuf (b.modify i (· ^^^ x)) := by
  intro k
  by_cases hi : i < b.length
  · rw [getD_modify _ _ _ _ hi]
    split
    · exact Nat.xor_lt_two_pow (n := 8) (h k) hx
    · exact h k
  · rw [List.modify_eq_self (by omega)]; exact h k

theorem smallBuf_xorAt {d : Bytes} (hd : IsBytes d) : ∀ {b : Bytes} (off : Nat), SmallBuf b → SmallBuf (xorAt b off d) := by
  induction d with
  | nil => exact fun _ h => h
  | cons x d ih => exact fun _ h => ih (fun y hy => hd y (by simp [hy])) _ (smallBuf_modify h _ _ (hd x (by simp)))

theorem or_shl (a b i : Nat) (h : a < 2 ^ i) (hb : b < 256) (hi : i ≤ 248) : a ||| (b <<< i % 2 ^ 256) = a + b * 2 ^ i := by
  have hlt : b <<< i < 2 ^ 256 := by
    rw [Nat.shiftLeft_eq]
    calc b * 2 ^ i < 2 ^ 8 * 2 ^ i := Nat.mul_lt_mul_of_pos_right hb (Nat.two_pow_pos i)
      _ = 2 ^ (8 + i) := by rw [Nat.pow_add]
      _ ≤ 2 ^ 256 := Nat.pow_le_pow_right (by decide) (by omega)
  rw [Nat.mod_eq_of_lt hlt, Nat.or_comm, ← Nat.shiftLeft_add_eq_or_of_lt h, Nat.shiftLeft_eq, Nat.add_comm]

theorem or8 (b0 b1 b2 b3 b4 b5 b6 b7 : Nat) (h0 : b0 < 256) (h1 : b1 < 256) (h2 : b2 < 256) (h3 : b3 < 256) (h4 : b4 < 256) (h5 : b5 < 256)
    (h6 : b6 < 256) (h7 : b7 < 256) :
    (b0 ||| b1 <<< 8 % 2 ^ 256 ||| b2 <<< 16 % 2 ^ 256 ||| b3 <<< 24 % 2 ^ 256 ||| b4 <<< 32 % 2 ^ 256 ||| b5 <<< 40 % 2 ^ 256 ||| b6 <<< 48 % 2 ^ 256 ||| b7 <<< 56 % 2 ^ 256)
      = b0 + b1 * 2 ^ 8 + b2 * 2 ^ 16 + b3 * 2 ^ 24 + b4 * 2 ^ 32 + b5 * 2 ^ 40 + b6 * 2 ^ 48 + b7 * 2 ^ 56 := by
  have k2 : (b0 + b1 * 2 ^ 8) < 2 ^ 16 := by omega
  have k3 : (b0 + b1 * 2 ^ 8 + b2 * 2 ^ 16) < 2 ^ 24 := by omega
  have k4 : (b0 + b1 * 2 ^ 8 + b2 * 2 ^ 16 + b3 * 2 ^ 24) < 2 ^ 32 := by omega
  have k5 : (b0 + b1 * 2 ^ 8 + b2 * 2 ^ 16 + b3 * 2 ^ 24 + b4 * 2 ^ 32) < 2 ^ 40 := by omega
  have k6 : (b0 + b1 * 2 ^ 8 + b2 * 2 ^ 16 + b3 * 2 ^ 24 + b4 * 2 ^ 32 + b5 * 2 ^ 40) < 2 ^ 48 := by omega
  have k7 : (b0 + b1 * 2 ^ 8 + b2 * 2 ^ 16 + b3 * 2 ^ 24 + b4 * 2 ^ 32 + b5 * 2 ^ 40 + b6 * 2 ^ 48) < 2 ^ 56 := by omega
  have e1 := or_shl b0 b1 8 h0 h1 (by decide)
  have e2 := or_shl (b0 + b1 * 2 ^ 8) b2 16 k2 h2 (by decide)
  have e3 := or_shl (b0 + b1 * 2 ^ 8 + b2 * 2 ^ 16) b3 24 k3 h3 (by decide)
  have e4 := or_shl (b0 + b1 * 2 ^ 8 + b2 * 2 ^ 16 + b3 * 2 ^ 24) b4 32 k4 h4 (by decide)
  have e5 := or_shl (b0 + b1 * 2 ^ 8 + b2 * 2 ^ 16 + b3 * 2 ^ 24 + b4 * 2 ^ 32) b5 40 k5 h5 (by decide)
  have e6 := or_shl (b0 + b1 * 2 ^ 8 + b2 * 2 ^ 16 + b3 * 2 ^ 24 + b4 * 2 ^ 32 + b5 * 2 ^ 40) b6 48 k6 h6 (by decide)
  have e7 := or_shl (b0 + b1 * 2 ^ 8 + b2 * 2 ^ 16 + b3 * 2 ^ 24 + b4 * 2 ^ 32 + b5 * 2 ^ 40 + b6 * 2 ^ 48) b7 56 k7 h7 (by decide)
  rw [e1, e2, e3, e4, e5, e6, e7]

theorem fold8 (g : Nat → Nat) : (List.range 8).foldl (fun a k => a + g k * 256 ^ k) 0 =
    g 0 + g 1 * 2 ^ 8 + g 2 * 2 ^ 16 + g 3 * 2 ^ 24 + g 4 * 2 ^ 32 + g 5 * 2 ^ 40 + g 6 * 2 ^ 48 + g 7 * 2 ^ 56 := by
  rw [show List.range 8 = [0, 1, 2, 3, 4, 5, 6, 7] from rfl]
  rw [List.foldl_cons, List.foldl_cons, List.foldl_cons, List.foldl_cons, List.foldl_cons, List.foldl_cons, List.foldl_cons, List.foldl_cons, List.foldl_nil,
    show (256 : Nat) ^ 1 = 2 ^ 8 from rfl, show (256 : Nat) ^ 2 = 2 ^ 16 from rfl, show (256 : Nat) ^ 3 = 2 ^ 24 from rfl, show (256 : Nat) ^ 4 = 2 ^ 32 from rfl,
    show (256 : Nat) ^ 5 = 2 ^ 40 from rfl, show (256 : Nat) ^ 6 = 2 ^ 48 from rfl, show (256 : Nat) ^ 7 = 2 ^ 56 from rfl, Nat.pow_zero, Nat.mul_one, Nat.zero_add]

theorem bufWord_eq (buf : Bytes) (w : Nat) (h : SmallBuf buf) :
    Sol.bufWord buf w = (BitVec.ofNat 64 ((List.range 8).foldl (fun a k => a + buf.getD (8 * w + k) 0 * 256 ^ k) 0)).toNat := by
  rw [fold8 (fun k => buf.getD (8 * w + k) 0), ← or8 _ _ _ _ _ _ _ _ (h _) (h _) (h _) (h _) (h _) (h _) (h _) (h _), BitVec.toNat_ofNat, ← and_mask]
  rfl

theorem setLoop_length (g : Nat → Nat) (s : List Nat) (l : List Nat) :
    (l.foldl (fun s w => s.set w (Sol.wd s w ^^^ g w)) s).length = s.length := by
  induction l generalizing s with
  | nil => rfl
  | cons w l ih => rw [List.foldl_cons, ih, List.length_set]

theorem getD_set (l : List Nat) (i k x : Nat) (hi : i < l.length) : (l.set i x).getD k 0 = if k = i then x else l.getD k 0 := by
  simp only [List.getD_eq_getElem?_getD, List.getElem?_set]
  by_cases h : k = i
  · subst h; simp [hi]
  · simp [h, show ¬ i = k from fun e => h e.symm]

theorem setLoop_getD (g : Nat → Nat) (s : List Nat) (N k : Nat) (hN : N ≤ s.length) :
    ((List.range N).foldl (fun s w => s.set w (Sol.wd s w ^^^ g w)) s).getD k 0 = if k < N then s.getD k 0 ^^^ g k else s.getD k 0 := by
  induction N with
  | zero => simp
  | succ N ih =>
    rw [List.range_succ, List.foldl_append, List.foldl_cons, List.foldl_nil, getD_set _ _ _ _ (by rw [setLoop_length]; omega)]
    by_cases h : k = N
    · subst h; rw [if_pos rfl, if_pos (by omega), Sol.wd, ih (by omega), if_neg (by omega)]
    · rw [if_neg h, ih (by omega)]
      by_cases h2 : k < N
      · rw [if_pos h2, if_pos (by omega)]
      · rw [if_neg h2, if_neg (by omega)]

theorem list_ext_getD {a b : List Nat} (hl : a.length = b.length) (h : ∀ k, k < a.length → a.getD k 0 = b.getD k 0) : a = b := by
  apply List.ext_getElem hl
  intro k h1 h2
  simpa [h1, h2] using h k h1

theorem bytesToLanes_length (b : Bytes) : (bytesToLanes b).length = 25 := by
  unfold Spec.bytesToLanes; rw [List.length_map, List.length_range]

/-- XORing the buffer into the state, on lane values. -/
theorem sol_inject (st : List Lane) (hst : st.length = 25) (buf : Bytes) (hb : SmallBuf buf) :
    (List.range 25).foldl (fun s w => s.set w (Sol.wd s w ^^^ Sol.bufWord buf w)) (st.map BitVec.toNat) =
      (List.zipWith (· ^^^ ·) st (bytesToLanes buf)).map BitVec.toNat := by
  apply list_ext_getD
  · rw [setLoop_length, List.length_map, List.length_map, List.length_zipWith, bytesToLanes_length, hst]; rfl
  · intro k hk
    rw [setLoop_length, List.length_map, hst] at hk
    rw [setLoop_getD _ _ _ _ (by rw [List.length_map, hst]; exact Nat.le_refl _), if_pos hk, bufWord_eq _ _ hb]
    have h1 : k < st.length := by omega
    have h2 : k < (bytesToLanes buf).length := by rw [bytesToLanes_length]; omega
    rw [List.getD_eq_getElem?_getD, List.getD_eq_getElem?_getD, List.getElem?_map, List.getElem?_map, List.getElem?_zipWith, List.getElem?_eq_getElem h1, List.getElem?_eq_getElem h2]
    simp only [Option.map_some, Option.getD_some]
    rw [BitVec.toNat_xor]
    congr 2
    simp only [Spec.bytesToLanes, List.getElem_map, List.getElem_range]

/-- The contract's context mirrors a Python context. -/
structure Mirror (s : Sol.Ctx) (c : Ctx) : Prop where
  state : s.state = c.state.map BitVec.toNat
  buff : s.buff = c.buf
  i : s.i = c.i
  dir : s.direction = false
  len : c.state.length = 25
  small : SmallBuf c.buf

theorem sol_permute (st : List Lane) (hst : st.length = 25) (buf : Bytes) (hb : SmallBuf buf) (i : Nat) :
    Sol.shakePermute buf (st.map BitVec.toNat) = ((permute F1600 ⟨st, buf, i⟩).buf, (permute F1600 ⟨st, buf, i⟩).state.map BitVec.toNat) := by
  rw [Sol.shakePermute, sol_inject st hst buf hb, sol_f1600_eq _ (by rw [List.length_zipWith, bytesToLanes_length, hst]; rfl)]
  rfl

theorem permute_len (c : Ctx) (h : c.state.length = 25) : (permute F1600 c).state.length = 25 :=
  F1600_length _ (by rw [List.length_zipWith, bytesToLanes_length, h]; rfl)

theorem permute_small (c : Ctx) : SmallBuf (permute F1600 c).buf := smallBuf_zero _

theorem set_eq_modify (b : Bytes) (i x : Nat) : b.set i (Sol.wd b i ^^^ x) = b.modify i (· ^^^ x) := by
  by_cases h : i < b.length
  · apply list_ext_getD (by simp)
    intro k hk
    rw [getD_set _ _ _ _ h, getD_modify _ _ _ _ h]
    by_cases hk : k = i
    · subst hk; rfl
    · rw [if_neg hk, if_neg hk]
  · rw [List.modify_eq_self (by omega), List.set_eq_of_length_le (by omega)]

theorem sol_xorLoop (buf : Bytes) (i : Nat) (input : Bytes) (index w : Nat) (h : index + w ≤ input.length) :
    Sol.xorLoop buf i input index w = xorAt buf i ((input.drop index).take w) := by
  unfold Sol.xorLoop
  induction w with
  | zero => simp [xorAt]
  | succ w ih =>
    rw [List.range_succ, List.foldl_append, ih (by omega), List.take_succ_eq_append_getElem (by simp; omega), xorAt_append]
    simp only [List.foldl_cons, List.foldl_nil, xorAt, List.length_take, List.length_drop]
    rw [Nat.min_eq_left (by omega), set_eq_modify]
    have : Sol.wd input (index + w) = (input.drop index)[w]'(by simp; omega) := by
      rw [Sol.wd, List.getElem_drop]; simp [show index + w < input.length by omega]
    rw [this]

theorem sol_absorbLoop (input : Bytes) (hin : IsBytes input) (fuel : Nat) (c : Ctx) (index : Nat) (hx : index ≤ input.length)
    (hlen : c.state.length = 25) (hb : SmallBuf c.buf) :
    let c' := absorbLoop F1600 136 fuel c (input.drop index)
    Sol.absorbLoop input fuel c.i c.buf (c.state.map BitVec.toNat) (input.length - index) index = (c'.i, c'.buf, c'.state.map BitVec.toNat) ∧
    c'.state.length = 25 ∧ SmallBuf c'.buf := by
  induction fuel generalizing c index with
  | zero => exact ⟨rfl, hlen, hb⟩
  | succ fuel ih =>
    unfold absorbLoop Sol.absorbLoop
    dsimp only
    rw [List.length_drop]
    by_cases h0 : input.length - index = 0
    · rw [if_pos h0, if_pos h0]; exact ⟨rfl, hlen, hb⟩
    · rw [if_neg h0, if_neg h0]
      have hw : (if 136 - c.i < input.length - index then 136 - c.i else input.length - index) = min (136 - c.i) (input.length - index) := by
        split <;> omega
      rw [hw]
      obtain ⟨w, hwd⟩ : ∃ w, w = min (136 - c.i) (input.length - index) := ⟨_, rfl⟩
      rw [← hwd, sol_xorLoop _ _ _ _ _ (by omega), List.drop_drop, Nat.sub_sub]
      have hsm : SmallBuf (xorAt c.buf c.i ((input.drop index).take w)) :=
        smallBuf_xorAt (fun x hx => hin x (List.mem_of_mem_drop (List.mem_of_mem_take hx))) _ hb
      by_cases h1 : c.i + w = 136
      · rw [if_pos h1, if_pos h1, sol_permute _ hlen _ hsm (c.i + w)]
        exact ih (permute F1600 ⟨c.state, xorAt c.buf c.i ((input.drop index).take w), c.i + w⟩) (index + w) (by omega) (permute_len _ hlen) (permute_small _)
      · rw [if_neg h1, if_neg h1]
        exact ih ⟨c.state, xorAt c.buf c.i ((input.drop index).take w), c.i + w⟩ (index + w) (by omega) hlen hsm

/-- `shakeUpdate` mirrors `SHAKE.update`. -/
theorem mirror_update {s : Sol.Ctx} {c : Ctx} (h : Mirror s c) (input : Bytes) (hin : IsBytes input) :
    Mirror (Sol.shakeUpdate s input) (absorb F1600 136 c input) := by
  obtain ⟨e1, e2, e3⟩ := sol_absorbLoop input hin input.length c 0 (Nat.zero_le _) h.len h.small
  rw [List.drop_zero] at e1 e2 e3
  rw [Nat.sub_zero] at e1
  unfold Sol.shakeUpdate Sol.shakeAbsorb
  rw [h.dir]
  simp only [Bool.false_eq_true, if_false]
  rw [h.i, h.buff, h.state, e1]
  exact ⟨rfl, rfl, rfl, rfl, e2, e3⟩

theorem mirror_init : Mirror Sol.Ctx.init Ctx.new := ⟨by rw [Sol.Ctx.init, Ctx.new, List.map_replicate]; rfl, rfl, rfl, rfl, List.length_replicate, smallBuf_zero _⟩

theorem lanesToBytes_getD (st : List Lane) (k : Nat) (hk : k < 8 * st.length) :
    (lanesToBytes st).getD k 0 = (st.map BitVec.toNat).getD (k / 8) 0 / 256 ^ (k % 8) % 256 := by
  unfold Spec.lanesToBytes
  induction st generalizing k with
  | nil => simp at hk
  | cons x st ih =>
    rw [List.flatMap_cons]
    by_cases h : k < 8
    · rw [getD_append_l _ _ _ (by simpa using h), Nat.div_eq_of_lt h, Nat.mod_eq_of_lt h]
      simp [List.getD_eq_getElem?_getD, h]
    · rw [getD_append_r _ _ _ (by simp; omega)]
      simp only [List.length_map, List.length_range]
      rw [ih _ (by simp at hk; omega)]
      obtain ⟨j, rfl⟩ : ∃ j, k = j + 8 := ⟨k - 8, by omega⟩
      rw [Nat.add_sub_cancel, Nat.add_mod_right, Nat.add_div_right _ (by decide), List.map_cons, List.getD_cons_succ]

theorem sol_stateByte (st : List Lane) (k : Nat) (hk : k < 8 * st.length) : Sol.stateByte (st.map BitVec.toNat) k = (lanesToBytes st).getD k 0 := by
  rw [lanesToBytes_getD _ _ hk, Sol.stateByte, Sol.wd, Nat.shiftRight_eq_div_pow, Nat.shiftRight_eq_div_pow, Nat.shiftLeft_eq,
    show (0xff : Nat) = 2 ^ 8 - 1 from rfl, Nat.and_two_pow_sub_one_eq_mod, show (7 : Nat) = 2 ^ 3 - 1 from rfl, Nat.and_two_pow_sub_one_eq_mod,
    Nat.mul_comm (k % 2 ^ 3), Nat.pow_mul]

theorem mirror_permute {s : Sol.Ctx} {c : Ctx} (h : Mirror s c) :
    Mirror { s with buff := (Sol.shakePermute s.buff s.state).1, state := (Sol.shakePermute s.buff s.state).2, i := 0 } (permute F1600 c) := by
  have e := sol_permute c.state h.len c.buf h.small c.i
  rw [h.buff, h.state, e]
  exact ⟨rfl, rfl, rfl, h.dir, permute_len _ h.len, permute_small _⟩

theorem mirror_squeezeLoop (fuel : Nat) {s : Sol.Ctx} {c : Ctx} (h : Mirror s c) (hi : c.i < 136) (n : Nat) (out : Bytes) :
    Mirror (Sol.squeezeLoop fuel s n out).1 (squeezeLoop F1600 136 fuel c n out).1 ∧
    (Sol.squeezeLoop fuel s n out).2 = (squeezeLoop F1600 136 fuel c n out).2 := by
  induction fuel generalizing s c n out with
  | zero => exact ⟨h, rfl⟩
  | succ fuel ih =>
    unfold Sol.squeezeLoop squeezeLoop
    dsimp only
    by_cases h0 : n = 0
    · rw [if_pos h0, if_pos h0]; exact ⟨h, rfl⟩
    · rw [if_neg h0, if_neg h0]
      have hw : (if 136 - s.i < n then 136 - s.i else n) = min (136 - c.i) n := by rw [h.i]; split <;> omega
      rw [hw]
      obtain ⟨w, hwd⟩ : ∃ w, w = min (136 - c.i) n := ⟨_, rfl⟩
      rw [← hwd]
      have hout : (List.range w).map (fun j => Sol.stateByte s.state (s.i + j)) = ((lanesToBytes c.state).drop c.i).take w := by
        rw [slice_eq _ _ _ (by rw [lanesToBytes_length, h.len]; omega)]
        apply List.map_congr_left
        intro j hj
        have hj := List.mem_range.mp hj
        rw [h.state, h.i, sol_stateByte _ _ (by rw [h.len]; omega)]
      rw [hout]
      have hm : Mirror { s with i := s.i + w } { c with i := c.i + w } := ⟨h.state, h.buff, by rw [h.i], h.dir, h.len, h.small⟩
      by_cases h1 : c.i + w = 136
      · rw [if_pos (by rw [h.i]; exact h1), if_pos h1]
        exact ih (mirror_permute hm) (by simp [permute]) _ _
      · rw [if_neg (by rw [h.i]; exact h1), if_neg h1]
        exact ih hm (by simp; omega) _ _

/-- `shakeSqueeze` mirrors `SHAKE.read`. -/
theorem mirror_squeeze {s : Sol.Ctx} {c : Ctx} (h : Mirror s c) (hi : c.i < 136) (n : Nat) :
    Mirror (Sol.shakeSqueeze s n).1 (squeeze F1600 136 c n).1 ∧ (Sol.shakeSqueeze s n).2 = (squeeze F1600 136 c n).2 :=
  mirror_squeezeLoop n h hi n []

/-- `shakePad` mirrors `SHAKE.flip`. -/
theorem mirror_pad {s : Sol.Ctx} {c : Ctx} (h : Mirror s c) : Mirror (Sol.shakePad s) (pad F1600 136 0x1f c) := by
  have hm : Mirror { s with buff := (s.buff.modify s.i (· ^^^ 0x1f)).modify (136 - 1) (· ^^^ 0x80) }
      { c with buf := (c.buf.modify c.i (· ^^^ 0x1f)).modify (136 - 1) (· ^^^ 0x80) } :=
    ⟨h.state, by rw [h.buff, h.i], h.i, h.dir, h.len, smallBuf_modify (smallBuf_modify h.small _ _ (by decide)) _ _ (by decide)⟩
  have := mirror_permute hm
  unfold Sol.shakePad
  dsimp only
  rw [set_eq_modify, set_eq_modify]
  exact this

end Verif.Keccak
