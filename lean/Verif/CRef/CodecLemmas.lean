import Mathlib.Tactic.IntervalCases
import Mathlib.Tactic.Ring
import Mathlib.Tactic.Linarith
import Verif.CRef.Codec
import Verif.Codec.Props

namespace Verif.CRef
open Verif Verif.Codec Verif.Codec.Spec

theorem push32_ok {acc : Nat} {r : List Bool} (h : AccIs acc r) (w v : Nat) (hv : v < 2 ^ w) (hl : r.length + w ≤ 32) :
    AccIs (push32 acc w v) (r ++ natBits w v) := by
  unfold push32
  have hv32 : v < 2 ^ 32 := Nat.lt_of_lt_of_le hv (Nat.pow_le_pow_right (by decide) (by omega))
  have e : ((acc <<< w) % 4294967296) ||| v = ((acc <<< w) ||| v) % 2 ^ 32 := by
    rw [Nat.or_mod_two_pow, Nat.mod_eq_of_lt hv32]
  rw [e]
  exact (h.push w v hv).mod 32 (by simp; omega)

/-- Invariant of the writing loops: `U` has been pushed, the complete bytes are in `out`. -/
def OutInv (U : List Bool) (acc accLen : Nat) (out : Bytes) : Prop :=
  IsBytes out ∧ ∃ r, U = bytesBits out ++ r ∧ r.length = accLen ∧ AccIs acc r

theorem OutInv.push {U : List Bool} {acc accLen : Nat} {out : Bytes} (h : OutInv U acc accLen out) (w v : Nat) (hv : v < 2 ^ w) (hl : accLen + w ≤ 32) :
    OutInv (U ++ natBits w v) (push32 acc w v) (accLen + w) out := by
  obtain ⟨h0, r, h1, h2, h3⟩ := h
  exact ⟨h0, r ++ natBits w v, by rw [h1, List.append_assoc], by simp [h2], push32_ok h3 w v hv (by omega)⟩

theorem isBytes_snoc {out : Bytes} (h : IsBytes out) (b : Nat) (hb : b < 256) : IsBytes (out ++ [b]) := by
  intro c hc
  rw [List.mem_append, List.mem_singleton] at hc
  rcases hc with hc | rfl
  · exact h c hc
  · exact hb

theorem OutInv.byte {U : List Bool} {acc accLen : Nat} {out : Bytes} (h : OutInv U acc accLen out) (h8 : 8 ≤ accLen) :
    OutInv U acc (accLen - 8) (out ++ [(acc >>> (accLen - 8)) % 256]) := by
  obtain ⟨h0, r, h1, h2, h3⟩ := h
  have ht := h3.top 8 (by omega)
  rw [h2, Nat.and_two_pow_sub_one_eq_mod] at ht
  have hv : (acc >>> (accLen - 8)) % 256 < 256 := Nat.mod_lt _ (by decide)
  refine ⟨isBytes_snoc h0 _ hv, r.drop 8, ?_, by simp [h2], h3.drop 8⟩
  have l8 : (r.take 8).length = 8 := by simp; omega
  have hh := natBits_bitsNat (r.take 8)
  rw [l8] at hh
  rw [bytesBits_append, bytesBits_cons, bytesBits_nil, List.append_nil, show (256 : Nat) = 2 ^ 8 by decide, ht, hh, List.append_assoc, List.take_append_drop, h1]

theorem emit_ok (U : List Bool) (acc accLen : Nat) (out : Bytes) (h : OutInv U acc accLen out) :
    (emit acc accLen out).1 < 8 ∧ OutInv U acc (emit acc accLen out).1 (emit acc accLen out).2 := by
  induction hl : accLen using Nat.strongRecOn generalizing accLen out with
  | _ k ih =>
    subst hl
    rw [emit]
    by_cases h8 : accLen ≥ 8
    · rw [if_pos h8]
      exact ih (accLen - 8) (by omega) (accLen - 8) _ (h.byte h8) rfl
    · rw [if_neg h8]; exact ⟨by simpa using h8, h⟩

/-- The last partial byte. -/
theorem OutInv.last {U : List Bool} {acc accLen : Nat} {out : Bytes} (h : OutInv U acc accLen out) (h0 : 0 < accLen) (h8 : accLen < 8) :
    IsBytes (out ++ [(acc <<< (8 - accLen)) % 256]) ∧ bytesBits (out ++ [(acc <<< (8 - accLen)) % 256]) = U ++ zeros (8 - accLen) := by
  obtain ⟨hb, r, h1, h2, h3⟩ := h
  have hacc := h3.push (8 - accLen) 0 (Nat.pow_pos (by decide))
  rw [Nat.or_zero] at hacc
  have hl8 : (r ++ natBits (8 - accLen) 0).length = 8 := by simp; omega
  have hv := hacc.top 8 (by omega)
  rw [hl8, Nat.sub_self, Nat.shiftRight_zero, List.take_of_length_le (by omega), Nat.and_two_pow_sub_one_eq_mod] at hv
  refine ⟨isBytes_snoc hb _ (Nat.mod_lt _ (by decide)), ?_⟩
  have hh := natBits_bitsNat (r ++ natBits (8 - accLen) 0)
  rw [hl8] at hh
  rw [bytesBits_append, bytesBits_cons, bytesBits_nil, List.append_nil, show (256 : Nat) = 2 ^ 8 by decide, hv, hh, h1, natBits_zero, List.append_assoc]

theorem OutInv.done {U : List Bool} {acc : Nat} {out : Bytes} (h : OutInv U acc 0 out) : IsBytes out ∧ bytesBits out = U := by
  obtain ⟨hb, r, h1, h2, h3⟩ := h
  rw [List.length_eq_zero_iff] at h2
  subst h2
  exact ⟨hb, by rw [h1, List.append_nil]⟩

theorem packLoop_ok (w : Nat) (hw : w ≤ 24) (vs : List Nat) (hv : ∀ v ∈ vs, v < 2 ^ w) (U : List Bool) (acc accLen : Nat) (out : Bytes)
    (h : OutInv U acc accLen out) (h8 : accLen < 8) :
    IsBytes (packLoop w vs acc accLen out) ∧ ∃ k, k < 8 ∧ bytesBits (packLoop w vs acc accLen out) = U ++ fieldBits w vs ++ zeros k := by
  induction vs generalizing U acc accLen out with
  | nil =>
    rw [packLoop]
    by_cases h0 : accLen > 0
    · rw [if_pos h0]
      obtain ⟨a, b⟩ := h.last h0 h8
      exact ⟨a, 8 - accLen, by omega, by rw [b]; simp [fieldBits]⟩
    · rw [if_neg h0]
      obtain rfl : accLen = 0 := by omega
      obtain ⟨a, b⟩ := h.done
      exact ⟨a, 0, by omega, by rw [b]; simp [fieldBits, zeros]⟩
  | cons v vs ih =>
    rw [packLoop]
    obtain ⟨e1, e2⟩ := emit_ok _ _ _ _ (h.push w v (hv v (by simp)) (by omega))
    obtain ⟨a, k, b, c⟩ := ih (fun u hu => hv u (by simp [hu])) _ _ _ _ e2 e1
    exact ⟨a, k, b, by rw [c]; simp [fieldBits]⟩

theorem outInv_init : OutInv [] 0 0 [] := ⟨by intro b hb; simp at hb, [], rfl, rfl, accIs_nil⟩

theorem fieldBits_len (w : Nat) (vs : List Nat) : (fieldBits w vs).length = w * vs.length := by
  unfold fieldBits; induction vs with
  | nil => simp
  | cons v vs ih => simp only [List.flatMap_cons, List.length_append, natBits_length, ih, List.length_cons, Nat.mul_succ]; omega

theorem pack_isPacking (w : Nat) (hw : w ≤ 24) (vs : List Nat) (hv : ∀ v ∈ vs, v < 2 ^ w) : IsPacking w vs (packLoop w vs 0 0 []) := by
  obtain ⟨a, k, b, c⟩ := packLoop_ok w hw vs hv [] 0 0 [] outInv_init (by decide)
  rw [List.nil_append] at c
  refine ⟨a, ?_, k, c⟩
  have := congrArg List.length c
  rw [bytesBits_length, List.length_append, fieldBits_len] at this
  simp only [zeros, List.length_replicate] at this
  have hp := packedLen_bounds vs.length w
  omega

theorem outLen_eq (n w : Nat) : outLen n w = packedLen n w := by
  unfold outLen packedLen; rw [Nat.shiftRight_eq_div_pow]

/-! ## Reading -/

theorem unpackLoop_eq {α : Type} (n w : Nat) (h8 : 8 ≤ w) (hw : w ≤ 24) (post : Nat → Option α) (acc : Nat) (r : List Bool) (x : List α) (data : Bytes) (hd : IsBytes data)
    (ha : AccIs acc r) (hr : r.length < w) (hlen : w * (n - x.length) ≤ r.length + 8 * data.length) :
    unpackLoop n w post acc r.length x data = finish (bm n w post r x data) := by
  induction data generalizing acc r x with
  | nil =>
    by_cases h : x.length < n
    · exfalso
      have : w * 1 ≤ w * (n - x.length) := Nat.mul_le_mul_left _ (by omega)
      simp at hlen; omega
    · rw [bm_done h]; simp only [unpackLoop, h, if_false, finish, ha.low]
  | cons b data ih =>
    have hb : b < 2 ^ 8 := hd b (by simp)
    have hd' : IsBytes data := fun c hc => hd c (by simp [hc])
    by_cases h : x.length < n
    · rw [bm_byte h hr]
      have ha' := push32_ok ha 8 b hb (by omega)
      simp only [List.length_cons] at hlen
      rw [unpackLoop]
      simp only [h, if_true]
      have hlr : (r ++ natBits 8 b).length = r.length + 8 := by simp
      by_cases h14 : r.length + 8 ≥ w
      · rw [if_pos h14]
        have ht := ha'.top w (by omega)
        rw [hlr] at ht
        rw [bm_pop h (by omega) (by omega)]
        rw [Nat.one_shiftLeft, ht]
        cases hq : post (bitsNat ((r ++ natBits 8 b).take w)) with
        | none => rfl
        | some v =>
          have hdl : ((r ++ natBits 8 b).drop w).length = r.length + 8 - w := by simp
          dsimp only
          rw [← hdl]
          refine ih _ _ _ hd' (ha'.drop w) (by omega) ?_
          rw [hdl, List.length_append, List.length_singleton]
          have e : n - x.length = (n - (x.length + 1)) + 1 := by omega
          rw [e, Nat.mul_succ] at hlen
          omega
      · rw [if_neg h14]
        rw [← hlr]
        exact ih _ _ _ hd' ha' (by omega) (by omega)
    · rw [bm_done h]; simp only [unpackLoop, h, if_false, finish, ha.low]

theorem id_fieldCode (w : Nat) : FieldCode Nat w some id (· < 2 ^ w) :=
  ⟨fun v hv c => by constructor
                    · intro h; cases h; exact ⟨rfl, hv⟩
                    · rintro ⟨rfl, _⟩; rfl, fun c hc => hc⟩

theorem mapM_some (l : List Nat) : l.mapM (m := Option) some = some l := by
  induction l with
  | nil => rfl
  | cons a l ih => rw [List.mapM_cons, ih]; rfl

/-- Acceptance for an arbitrary, possibly not injective, reading of the fields. -/
theorem bm_accepts_map {α : Type} (w : Nat) (post : Nat → Option α) (hw : 0 < w) (n : Nat) (data : Bytes) (hd : IsBytes data)
    (hlen : packedLen n w ≤ data.length) (x : List α) :
    (∃ r' data', bm n w post [] [] data = some (r', x, data') ∧ bitsNat r' = 0) ↔
      ∃ vs, vs.length = n ∧ (∀ v ∈ vs, v < 2 ^ w) ∧ IsPacking w vs (data.take (packedLen n w)) ∧ vs.mapM post = some x := by
  have hp := packedLen_bounds n w
  have b1 := bm_spec n w post [] [] data hw (by simp) (by simp; omega)
  have b2 := bm_spec n w some [] [] data hw (by simp) (by simp; omega)
  simp only [List.length_nil, Nat.sub_zero, List.nil_append] at b1 b2
  rw [mapM_some] at b2
  obtain ⟨r2, d2, c1, c2, c3, c4⟩ := b2.1 _ rfl
  have acc := bm_accepts (id_fieldCode w) hw n data hd hlen
  simp only [List.map_id] at acc
  constructor
  · rintro ⟨r', data', h1, h2⟩
    cases hm : (fields w n (bytesBits data)).mapM post with
    | none => rw [b1.2 hm] at h1; cases h1
    | some y =>
      obtain ⟨r1, d1, a1, a2, a3, a4⟩ := b1.1 y hm
      rw [a1] at h1
      simp only [Option.some.injEq, Prod.mk.injEq] at h1
      obtain ⟨rfl, rfl, rfl⟩ := h1
      have hr : r1 = r2 := by
        have e := a2.trans c2.symm
        have e2 := congrArg List.length e
        simp only [List.length_append, bytesBits_length] at e2
        have : r1.length = r2.length := by simp at a4 c4; omega
        exact (List.append_inj e this).1
      have := (acc (fields w n (bytesBits data))).1 ⟨r2, d2, c1, by rw [← hr]; exact h2⟩
      exact ⟨_, this.1, this.2.1, this.2.2, hm⟩
  · rintro ⟨vs, h1, h2, h3, h4⟩
    obtain ⟨r', d', e1, e2⟩ := (acc vs).2 ⟨h1, h2, h3⟩
    rw [c1] at e1
    simp only [Option.some.injEq, Prod.mk.injEq] at e1
    obtain ⟨rfl, rfl, rfl⟩ := e1
    obtain ⟨r1, d1, a1, a2, a3, a4⟩ := b1.1 x h4
    have hr : r1 = r2 := by
      have e := a2.trans c2.symm
      have e2 := congrArg List.length e
      simp only [List.length_append, bytesBits_length] at e2
      have : r1.length = r2.length := by simp at a4 c4; omega
      exact (List.append_inj e this).1
    exact ⟨r1, d1, a1, by rw [hr]; exact e2⟩

theorem unpack_iff {α : Type} (n w : Nat) (h8 : 8 ≤ w) (hw : w ≤ 24) (post : Nat → Option α) (data : Bytes) (hd : IsBytes data)
    (hlen : packedLen n w ≤ data.length) (x : List α) :
    unpackLoop n w post 0 0 [] data = .ok x ↔
      ∃ vs, vs.length = n ∧ (∀ v ∈ vs, v < 2 ^ w) ∧ IsPacking w vs (data.take (packedLen n w)) ∧ vs.mapM post = some x := by
  have hp := packedLen_bounds n w
  have e := unpackLoop_eq n w h8 hw post 0 [] [] data hd accIs_nil (by simp; omega) (by simp; omega)
  rw [List.length_nil] at e
  rw [e, finish_ok_iff, bm_accepts_map w post (by omega) n data hd hlen]

theorem unpack_error {α : Type} (n w : Nat) (h8 : 8 ≤ w) (hw : w ≤ 24) (post : Nat → Option α) (data : Bytes) (hd : IsBytes data)
    (hlen : packedLen n w ≤ data.length) (e : Err) (h : unpackLoop n w post 0 0 [] data = .error e) : e = .valueError := by
  have hp := packedLen_bounds n w
  have e' := unpackLoop_eq n w h8 hw post 0 [] [] data hd accIs_nil (by simp; omega) (by simp; omega)
  rw [List.length_nil] at e'
  rw [e'] at h
  exact finish_error _ _ h

/-! ## The trimmed format -/

theorem bm_congr {α : Type} (n w : Nat) (p p' : Nat → Option α) (hp : ∀ v, v < 2 ^ w → p v = p' v) (r : List Bool) (x : List α) (data : Bytes) :
    bm n w p r x data = bm n w p' r x data := by
  have ht : ∀ r : List Bool, w ≤ r.length → p (bitsNat (r.take w)) = p' (bitsNat (r.take w)) := by
    intro r hr
    apply hp
    have := bitsNat_lt (r.take w)
    rwa [List.length_take, Nat.min_eq_left hr] at this
  fun_induction bm n w p r x data with
  | case1 r x data h => rw [bm.eq_def, if_pos h]
  | case2 r x data h h1 hq => rw [bm_pop (by omega) h1.2 h1.1, ← ht r h1.2, hq]
  | case3 r x data h h1 v hq ih => rw [bm_pop (post := p') (by omega) h1.2 h1.1, ← ht r h1.2, hq]; exact ih
  | case4 r x h h1 => rw [bm.eq_def, if_neg h, dif_neg h1]
  | case5 r x h h1 b data ih => rw [bm.eq_def n w p', if_neg h, dif_neg h1]; exact ih

theorem trimInner_bm (t n bits acc : Nat) (r : List Bool) (x : List Int) (data : Bytes) (ha : AccIs acc r) (hw : 0 < bits) :
    (∀ l y, trimInner t n bits acc r.length x = .ok (l, y) →
      ∃ r', l = r'.length ∧ AccIs acc r' ∧ bm n bits (trimValue t bits) r x data = bm n bits (trimValue t bits) r' y data ∧
        (y.length < n → r'.length < bits) ∧
        r'.length ≤ r.length ∧ bits * (n - y.length) + r.length ≤ bits * (n - x.length) + r'.length) ∧
    (∀ e, trimInner t n bits acc r.length x = .error e → e = .valueError ∧ bm n bits (trimValue t bits) r x data = none) := by
  induction hl : r.length using Nat.strongRecOn generalizing r x with
  | _ k ih =>
    subst hl
    rw [trimInner.eq_def]
    by_cases h : r.length ≥ bits ∧ x.length < n ∧ 0 < bits
    · rw [dif_pos h, bm_pop h.2.1 h.1 h.2.2, Nat.shiftLeft_eq 1 bits, Nat.one_mul, ha.top bits h.1]
      cases hq : trimValue t bits (bitsNat (r.take bits)) with
      | none =>
        refine ⟨by simp, ?_⟩
        intro e he; cases he; exact ⟨rfl, rfl⟩
      | some v =>
        have hdl : (r.drop bits).length = r.length - bits := by simp
        have := ih (r.drop bits).length (by omega) (r.drop bits) (x ++ [v]) (ha.drop bits) rfl
        rw [hdl] at this
        refine ⟨?_, this.2⟩
        intro l y hy
        obtain ⟨r', b1, b2, b3, b4, b5, b6⟩ := this.1 l y hy
        refine ⟨r', b1, b2, b3, b4, by omega, ?_⟩
        have e : n - x.length = (n - (x ++ [v]).length) + 1 := by simp; omega
        rw [e, Nat.mul_succ]; omega
    · rw [dif_neg h]
      refine ⟨?_, by intro e he; cases he⟩
      intro l y hy
      simp only [Except.ok.injEq, Prod.mk.injEq] at hy
      obtain ⟨rfl, rfl⟩ := hy
      exact ⟨r, rfl, ha, rfl, by intro hy; omega, by omega, by omega⟩

theorem trimLoop_eq (t n bits : Nat) (hw : 0 < bits) (hw' : bits ≤ 24) (acc : Nat) (r : List Bool) (x : List Int) (data : Bytes) (hd : IsBytes data)
    (ha : AccIs acc r) (hr : x.length < n → r.length < bits) (hlen : bits * (n - x.length) ≤ r.length + 8 * data.length) :
    trimLoop t n bits acc r.length x data = finish (bm n bits (trimValue t bits) r x data) := by
  induction data generalizing acc r x with
  | nil =>
    by_cases h : x.length < n
    · exfalso
      have : 0 < n - x.length := by omega
      have hle : bits * 1 ≤ bits * (n - x.length) := Nat.mul_le_mul_left _ this
      have := hr h
      simp at hlen; omega
    · rw [bm_done h]; simp only [trimLoop, h, if_false, finish, ha.low]
  | cons b data ih =>
    have hb : b < 2 ^ 8 := hd b (by simp)
    have hd' : IsBytes data := fun c hc => hd c (by simp [hc])
    by_cases h : x.length < n
    · rw [bm_byte h (hr h)]
      have hr' := hr h
      have ha' := push32_ok ha 8 b hb (by omega)
      simp only [List.length_cons] at hlen
      simp only [trimLoop, h, if_true]
      have hlr : (r ++ natBits 8 b).length = r.length + 8 := by simp
      have hdr := trimInner_bm t n bits _ (r ++ natBits 8 b) x data ha' hw
      rw [hlr] at hdr
      split
      · rename_i e he
        obtain ⟨h1, h2⟩ := hdr.2 e he
        rw [h2, h1]; rfl
      · rename_i l y he
        obtain ⟨r', b1, b2, b3, b4, b5, b6⟩ := hdr.1 l y he
        rw [b3, b1]
        exact ih _ _ _ hd' b2 b4 (by omega)
    · rw [bm_done h]; simp only [trimLoop, h, if_false, finish, ha.low]

theorem trimValue_eq (t bits f : Nat) (hb : 0 < bits) (hb' : bits ≤ 16) (ht : t = 256 ∨ t = 65536) (htb : 2 ^ bits ≤ t) (hf : f < 2 ^ bits) :
    trimValue t bits f = trimPost bits f := by
  unfold trimPost trimValue
  rw [signExtend_eq bits f hb hf]
  have key : f ||| neg32 (f &&& (1 <<< (bits - 1))) = if f < 2 ^ (bits - 1) then f else f + 4294967296 - 2 ^ bits := by
    have h2 : 2 ^ bits = 2 * 2 ^ (bits - 1) := by
      obtain ⟨k, rfl⟩ : ∃ k, bits = k + 1 := ⟨bits - 1, by omega⟩
      simp [Nat.pow_succ]; omega
    by_cases hlt : f < 2 ^ (bits - 1)
    · rw [if_pos hlt]
      have : f &&& (1 <<< (bits - 1)) = 0 := by
        rw [Nat.one_shiftLeft]
        apply Nat.eq_of_testBit_eq
        intro i
        rw [Nat.testBit_and, Nat.testBit_two_pow, Nat.zero_testBit]
        by_cases hi : bits - 1 = i
        · subst hi; rw [Nat.testBit_lt_two_pow hlt]; rfl
        · simp [hi]
      rw [this]; simp [neg32, sub32]
    · rw [if_neg hlt]
      obtain ⟨g, rfl⟩ : ∃ g, f = 2 ^ (bits - 1) + g := ⟨f - 2 ^ (bits - 1), by omega⟩
      have hg : g < 2 ^ (bits - 1) := by omega
      have e1 : (2 ^ (bits - 1) + g) &&& (1 <<< (bits - 1)) = 2 ^ (bits - 1) := by
        rw [Nat.one_shiftLeft]
        apply Nat.eq_of_testBit_eq
        intro i
        rw [Nat.testBit_and, Nat.testBit_two_pow]
        by_cases hi : bits - 1 = i
        · subst hi; rw [Nat.testBit_two_pow_add_eq, Nat.testBit_lt_two_pow hg]; rfl
        · simp [hi]
      rw [e1]
      have e2 : 2 ^ (bits - 1) + g = (1 <<< (bits - 1)) ||| g := by rw [or_shl _ _ _ hg]; omega
      have e3 : neg32 (2 ^ (bits - 1)) = (2 ^ (33 - bits) - 1) <<< (bits - 1) := by
        interval_cases bits <;> rfl
      have e4 : 1 ||| (2 ^ (33 - bits) - 1) = 2 ^ (33 - bits) - 1 := by interval_cases bits <;> rfl
      rw [e2, e3, Nat.or_assoc, Nat.or_comm g, ← Nat.or_assoc, ← Nat.shiftLeft_or_distrib, e4, or_shl _ _ _ hg, or_shl _ _ _ hg, h2]
      clear e2 e3 e4 e1 h2 hf htb hlt
      interval_cases bits <;> omega
  dsimp only
  rw [key]
  have e5 : neg32 (1 <<< (bits - 1)) = 4294967296 - 2 ^ (bits - 1) := by interval_cases bits <;> rfl
  have hsm : 2 ^ (bits - 1) * 2 ≤ t := by
    rw [← Nat.pow_succ, show (bits - 1).succ = bits by omega]; exact htb
  have h2 : 2 ^ bits = 2 * 2 ^ (bits - 1) := by
    obtain ⟨k, rfl⟩ : ∃ k, bits = k + 1 := ⟨bits - 1, by omega⟩
    simp [Nat.pow_succ]; omega
  rw [e5, Nat.one_shiftLeft]
  have h2i : (2 : Int) ^ bits = ((2 ^ bits : Nat) : Int) := by simp
  rw [h2i, h2]
  have hpos : 0 < 2 ^ (bits - 1) := Nat.pow_pos (by decide)
  rw [h2] at hf
  generalize hB : 2 ^ (bits - 1) = B at *
  have hB32 : B ≤ 32768 := by rcases ht with rfl | rfl <;> omega
  clear key h2i e5 hB h2 htb
  by_cases hlt : f < B
  · simp only [hlt, if_true]
    have c1 : ¬ f = 4294967296 - B := by omega
    have c2 : ¬ (f : Int) = -(B : Int) := by omega
    have c3 : i32 f = f := by
      unfold i32
      rw [Nat.mod_eq_of_lt (by omega), if_pos (by omega)]
    simp only [c1, c2, c3, if_false]
    congr 1
    have c4 : (f : Int) % t = f := Int.emod_eq_of_lt (by omega) (by omega)
    rw [c4, if_pos (by omega)]
  · simp only [hlt, if_false]
    by_cases heq : f = B
    · have c1 : f + 4294967296 - 2 * B = 4294967296 - B := by omega
      have c2 : (f : Int) - ((2 * B : Nat) : Int) = -(B : Int) := by omega
      simp only [c1, c2, if_true]
    · have c1 : ¬ f + 4294967296 - 2 * B = 4294967296 - B := by omega
      have c2 : ¬ (f : Int) - ((2 * B : Nat) : Int) = -(B : Int) := by omega
      have c3 : i32 (f + 4294967296 - 2 * B) = (f : Int) - ((2 * B : Nat) : Int) := by
        unfold i32
        rw [Nat.mod_eq_of_lt (by omega), if_neg (by omega)]
        omega
      simp only [c1, c2, c3, if_false]
      congr 1
      have c4 : ((f : Int) - ((2 * B : Nat) : Int)) % t = f - ((2 * B : Nat) : Int) + t := by
        rw [← Int.add_emod_right, Int.emod_eq_of_lt (by omega) (by omega)]
      rw [c4, if_neg (by omega)]
      omega

theorem trimField_eq (t bits : Nat) (ht : t = 256 ∨ t = 65536) (htb : 2 ^ bits ≤ t) (c : Int) : trimField t bits c = twos bits c := by
  unfold trimField twos
  rw [Nat.one_shiftLeft, Nat.and_two_pow_sub_one_eq_mod]
  have hd : (2 ^ bits : Nat) ∣ t := by
    obtain ⟨m, hm⟩ : ∃ m, t = 2 ^ m := by
      rcases ht with rfl | rfl
      · exact ⟨8, rfl⟩
      · exact ⟨16, rfl⟩
    subst hm
    exact pow_dvd_pow 2 ((Nat.pow_le_pow_iff_right (by decide)).1 htb)
  have hpos : (0 : Int) < t := by rcases ht with rfl | rfl <;> decide
  have hp2 : (0 : Int) < 2 ^ bits := Int.pow_pos (by decide)
  have h1 := Int.emod_nonneg c (Int.ne_of_gt hpos)
  have h2 := Int.emod_nonneg c (Int.ne_of_gt hp2)
  have e : (((c % t).toNat % 2 ^ bits : Nat) : Int) = c % 2 ^ bits := by
    rw [Int.natCast_emod, Int.toNat_of_nonneg h1]
    push_cast
    exact Int.emod_emod_of_dvd c (by exact_mod_cast hd)
  omega

end Verif.CRef
