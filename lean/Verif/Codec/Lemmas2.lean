import Verif.Codec.Lemmas

namespace Verif.Codec
open Verif Spec

theorem bm_sound {α : Type} (n w : Nat) (post : Nat → Option α) (r : List Bool) (x : List α) (data : Bytes)
    (hx : x.length ≤ n) (r' : List Bool) (y : List α) (d' : Bytes) (h : bm n w post r x data = some (r', y, d')) :
    y.length = n ∧ w * (n - x.length) ≤ r.length + 8 * data.length := by
  fun_induction bm n w post r x data with
  | case1 r x data h1 =>
    simp only [Option.some.injEq, Prod.mk.injEq] at h
    obtain ⟨rfl, rfl, rfl⟩ := h
    have : n - x.length = 0 := by omega
    exact ⟨by omega, by rw [this]; omega⟩
  | case2 => cases h
  | case3 r x data h1 h2 v hp ih =>
    have := ih (by simp; omega) h
    refine ⟨this.1, ?_⟩
    have e : n - x.length = (n - (x ++ [v]).length) + 1 := by simp; omega
    rw [e, Nat.mul_succ]
    have := this.2
    simp at this ⊢; omega
  | case4 => cases h
  | case5 r x h1 h2 b data ih =>
    have := ih hx h
    simp at this ⊢; omega

theorem modqDecode_eq (data : Bytes) (n : Nat) (hd : IsBytes data) :
    modqDecode data n = finish (bm n 14 modqPost [] [] data) := by
  unfold modqDecode
  have hp := packedLen_bounds n 14
  unfold packedLen at hp
  split
  · cases h : bm n 14 modqPost [] [] data with
    | none => rfl
    | some p =>
      obtain ⟨r, x, d⟩ := p
      have := (bm_sound n 14 modqPost [] [] data (by simp) r x d h).2
      simp at this; omega
  · exact modqDecLoop_eq n 0 [] [] data hd accIs_nil (by simp) (by simp; omega)

theorem trimDecode_eq (data : Bytes) (n bits : Nat) (hw : 0 < bits) (hd : IsBytes data) :
    trimDecode data n bits = finish (bm n bits (trimPost bits) [] [] data) := by
  unfold trimDecode
  have hp := packedLen_bounds n bits
  unfold packedLen at hp
  split
  · cases h : bm n bits (trimPost bits) [] [] data with
    | none => rfl
    | some p =>
      obtain ⟨r, x, d⟩ := p
      have := (bm_sound n bits (trimPost bits) [] [] data (by simp) r x d h).2
      simp at this; omega
  · rw [if_neg (by omega)]
    exact trimDecLoop_eq n bits hw 0 [] [] data hd accIs_nil (by intro _; simpa using hw) (by simp; omega)

theorem finish_ok_iff {α : Type} (o : Option (List Bool × List α × Bytes)) (x : List α) :
    finish o = .ok x ↔ ∃ r d, o = some (r, x, d) ∧ bitsNat r = 0 := by
  cases o with
  | none => simp [finish]
  | some p =>
    obtain ⟨r, y, d⟩ := p
    simp only [finish, Option.some.injEq, Prod.mk.injEq]
    constructor
    · intro h
      split at h
      · cases h
      · cases h; exact ⟨r, d, ⟨rfl, rfl, rfl⟩, by omega⟩
    · rintro ⟨r', d', ⟨rfl, rfl, rfl⟩, hz⟩
      simp [hz]

theorem finish_error {α : Type} (o : Option (List Bool × List α × Bytes)) (e : Err) (h : finish o = .error e) :
    e = .valueError := by
  cases o with
  | none => simp only [finish, Except.error.injEq] at h; exact h.symm
  | some p =>
    obtain ⟨r, y, d⟩ := p
    simp only [finish] at h
    split at h <;> cases h
    rfl

/-- prefix acceptance (no trailing-bit check) -/
theorem bm_prefix {α : Type} {w : Nat} {post : Nat → Option α} {enc : α → Nat} {ok : α → Prop}
    (H : FieldCode α w post enc ok) (hw : 0 < w) (n : Nat) (data : Bytes) (x : List α) :
    (∃ r' data', bm n w post [] [] data = some (r', x, data')) ↔
      x.length = n ∧ (∀ c ∈ x, ok c) ∧ fieldBits w (x.map enc) <+: bytesBits data := by
  constructor
  · rintro ⟨r', data', h⟩
    obtain ⟨h1, h2⟩ := bm_sound n w post [] [] data (by simp) r' x data' h
    simp at h2
    have hbs := bm_spec n w post [] [] data hw (by simp) (by simpa using h2)
    simp only [List.length_nil, Nat.sub_zero, List.nil_append] at hbs
    cases hm : (fields w n (bytesBits data)).mapM post with
    | none => rw [hbs.2 hm] at h; cases h
    | some y =>
      obtain ⟨r₁, d₁, a1, a2, _⟩ := hbs.1 y hm
      rw [a1] at h
      simp only [Option.some.injEq, Prod.mk.injEq] at h
      obtain ⟨rfl, rfl, rfl⟩ := h
      have hf := (mapM_fieldCode H _ (fields_lt w n _ (by simpa using h2)) y).1 hm
      refine ⟨h1, hf.2, ?_⟩
      rw [← hf.1, fieldBits_fields w n _ (by simpa using h2)]
      exact List.take_prefix _ _
  · rintro ⟨h1, h2, t, ht⟩
    have hlen := congrArg List.length ht
    simp [h1] at hlen
    have hbs := bm_spec n w post [] [] data hw (by simp) (by simp; omega)
    simp only [List.length_nil, Nat.sub_zero, List.nil_append] at hbs
    have hvlt : ∀ v ∈ x.map enc, v < 2 ^ w := by
      intro v hv; rw [List.mem_map] at hv; obtain ⟨c, hc, rfl⟩ := hv; exact H.lt c (h2 c hc)
    have hff := fields_fieldBits w (x.map enc) t hvlt
    rw [List.length_map, h1, ht] at hff
    have hm : (fields w n (bytesBits data)).mapM post = some x := by
      rw [mapM_fieldCode H _ (fields_lt w n _ (by simp; omega))]
      exact ⟨hff, h2⟩
    obtain ⟨r', data', a1, _⟩ := hbs.1 x hm
    exact ⟨r', data', a1⟩

/-! ### from_bytes -/

theorem fromBytesDrain_full (n acc l : Nat) (h : List Nat) (hn : ¬ h.length < n) :
    fromBytesDrain n acc l h = .ok (acc, l, h) := by
  rw [fromBytesDrain.eq_def, if_neg (by omega)]

theorem fromBytesDrain_short (n acc l : Nat) (h : List Nat) (hl : l < 14) :
    fromBytesDrain n acc l h = .ok (acc, l, h) := by
  rw [fromBytesDrain.eq_def, if_neg (by omega)]

theorem fromBytesLoop_eq (n acc : Nat) (r : List Bool) (h : List Nat) (data : Bytes) (hd : IsBytes data)
    (ha : AccIs acc r) (hr : h.length < n → r.length < 14) (hn : h.length ≤ n) :
    fromBytesLoop n acc r.length h data =
      match bm n 14 modqPost r h data with
      | none => .error .valueError
      | some (_, y, _) => .ok y := by
  induction data generalizing acc r h with
  | nil =>
    by_cases hlt : h.length < n
    · rw [bm.eq_def, if_neg (by omega), dif_neg (by have := hr hlt; omega)]
      simp only [fromBytesLoop]; rw [if_pos (by omega)]
    · rw [bm_done hlt]; simp only [fromBytesLoop]; rw [if_neg (by omega)]
  | cons b data ih =>
    have hb : b < 2 ^ 8 := hd b (by simp)
    have hd' : IsBytes data := fun c hc => hd c (by simp [hc])
    have ha' := ha.push 8 b hb
    have hlr : (r ++ natBits 8 b).length = r.length + 8 := by simp
    by_cases hlt : h.length < n
    · have hr := hr hlt
      rw [bm_byte hlt hr]
      by_cases h14 : r.length + 8 < 14
      · simp only [fromBytesLoop]
        rw [fromBytesDrain_short _ _ _ _ h14]
        simp only
        rw [← hlr]
        exact ih _ _ _ hd' ha' (by intro _; omega) hn
      · rw [bm_pop hlt (by omega) (by decide)]
        simp only [fromBytesLoop]
        rw [fromBytesDrain.eq_def, if_pos ⟨by omega, hlt⟩]
        simp only
        have ht := ha'.top 14 (by omega)
        rw [hlr] at ht
        rw [show (0x3FFF : Nat) = 2 ^ 14 - 1 by decide, ht]
        unfold modqPost
        by_cases hq : bitsNat ((r ++ natBits 8 b).take 14) ≥ 12289
        · simp [hq]
        · rw [if_neg hq]
          simp only [hq, if_false]
          rw [fromBytesDrain_short _ _ _ _ (by omega)]
          simp only
          have hdl : ((r ++ natBits 8 b).drop 14).length = r.length + 8 - 14 := by simp
          rw [← hdl]
          refine ih _ _ _ hd' ?_ (by intro _; omega) (by simp; omega)
          rw [Nat.shiftLeft_eq 1, Nat.one_mul, Nat.and_two_pow_sub_one_eq_mod]
          exact (ha'.drop 14).mod _ (Nat.le_refl _)
    · rw [bm_done hlt]
      simp only [fromBytesLoop]
      rw [fromBytesDrain_full _ _ _ _ hlt]
      simp only
      rw [← hlr, ih _ _ _ hd' ha' (by intro hh; omega) hn, bm_done hlt]

/-! ### the contract -/

theorem solDecLoop_eq (n acc : Nat) (r : List Bool) (x : List Nat) (data : Bytes) (hd : IsBytes data)
    (ha : AccIs acc r) (hr : r.length < 14) (y : List Nat) :
    solDecLoop n acc r.length x data = .ok y ↔ finish (bm n 14 modqPost r x data) = .ok y := by
  induction data generalizing acc r x with
  | nil =>
    by_cases h : x.length < n
    · rw [bm.eq_def, if_neg (by omega), dif_neg (by omega)]
      simp [solDecLoop, h, finish]
    · rw [bm_done h]; simp only [solDecLoop, h, if_false, finish, ha.low]
      split <;> simp
  | cons b data ih =>
    have hb : b < 2 ^ 8 := hd b (by simp)
    have hd' : IsBytes data := fun c hc => hd c (by simp [hc])
    by_cases h : x.length < n
    · rw [bm_byte h hr]
      have ha' : AccIs (((acc <<< 8) % 2 ^ 32) ||| b) (r ++ natBits 8 b) := by
        have e : ((acc <<< 8) % 2 ^ 32) ||| b = ((acc <<< 8) ||| b) % 2 ^ 32 := by
          rw [Nat.or_mod_two_pow, Nat.mod_eq_of_lt (show b < 2 ^ 32 by omega)]
        rw [e]
        exact (ha.push 8 b hb).mod 32 (by simp; omega)
      simp only [solDecLoop, h, if_true]
      by_cases h14 : r.length + 8 ≥ 14
      · rw [if_pos h14]
        have hlr : (r ++ natBits 8 b).length = r.length + 8 := by simp
        have ht := ha'.top 14 (by omega)
        rw [hlr] at ht
        rw [bm_pop h (by omega) (by decide)]
        rw [show (0x3FFF : Nat) = 2 ^ 14 - 1 by decide, ht]
        unfold modqPost
        by_cases hq : bitsNat ((r ++ natBits 8 b).take 14) ≥ 12289
        · simp [hq, finish]
        · rw [if_neg hq]
          simp only [hq, if_false]
          have hdl : ((r ++ natBits 8 b).drop 14).length = r.length + 8 - 14 := by simp
          rw [← hdl]
          exact ih _ _ _ hd' (ha'.drop 14) (by omega)
      · rw [if_neg h14]
        have hlr : (r ++ natBits 8 b).length = r.length + 8 := by simp
        rw [← hlr]
        exact ih _ _ _ hd' ha' (by omega)
    · rw [bm_done h]; simp only [solDecLoop, h, if_false, finish, ha.low]
      split <;> simp

end Verif.Codec
