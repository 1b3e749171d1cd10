import Verif.Codec.Model
import Verif.Codec.Spec

namespace Verif.Codec
open Verif Spec

/-! ### arithmetic of accumulators -/

theorem or_shl (acc w v : Nat) (h : v < 2 ^ w) : (acc <<< w) ||| v = acc * 2 ^ w + v := by
  rw [← Nat.shiftLeft_add_eq_or_of_lt h, Nat.shiftLeft_eq]

/-- the accumulator's low `r.length` bits are `r` -/
def AccIs (acc : Nat) (r : List Bool) : Prop := acc % 2 ^ r.length = bitsNat r

theorem AccIs.push {acc : Nat} {r : List Bool} (h : AccIs acc r) (w v : Nat) (hv : v < 2 ^ w) :
    AccIs ((acc <<< w) ||| v) (r ++ natBits w v) := by
  unfold AccIs at *
  rw [or_shl _ _ _ hv, bitsNat_append, natBits_length, bitsNat_natBits, List.length_append, natBits_length,
    Nat.mod_eq_of_lt hv, ← h, Nat.pow_add, Nat.mul_comm (2 ^ r.length), Nat.mod_mul, Nat.mul_add_mod',
    Nat.mod_eq_of_lt hv, Nat.mul_comm acc, Nat.mul_add_div (Nat.pow_pos (by decide)), Nat.div_eq_of_lt hv,
    Nat.add_zero, Nat.mul_comm, Nat.add_comm]

theorem AccIs.top {acc : Nat} {r : List Bool} (h : AccIs acc r) (w : Nat) (hw : w ≤ r.length) :
    (acc >>> (r.length - w)) &&& (2 ^ w - 1) = bitsNat (r.take w) := by
  unfold AccIs at h
  rw [Nat.and_two_pow_sub_one_eq_mod, Nat.shiftRight_eq_div_pow]
  have h1 : bitsNat r = bitsNat (r.take w) * 2 ^ (r.length - w) + bitsNat (r.drop w) := by
    conv => lhs; rw [← List.take_append_drop w r]
    rw [bitsNat_append, List.length_drop]
  have hlt := bitsNat_lt (r.drop w)
  rw [List.length_drop] at hlt
  have h2 : acc / 2 ^ (r.length - w) % 2 ^ w = acc % 2 ^ r.length / 2 ^ (r.length - w) := by
    rw [show 2 ^ r.length = 2 ^ (r.length - w) * 2 ^ w by rw [← Nat.pow_add]; congr 1; omega, Nat.mod_mul_right_div_self]
  rw [h2, h, h1, Nat.mul_comm, Nat.mul_add_div (Nat.pow_pos (by decide)), Nat.div_eq_of_lt hlt, Nat.add_zero]

theorem AccIs.drop {acc : Nat} {r : List Bool} (h : AccIs acc r) (w : Nat) : AccIs acc (r.drop w) := by
  unfold AccIs at *
  rcases Nat.lt_or_ge w r.length with hw | hw
  · have h1 : bitsNat r = bitsNat (r.take w) * 2 ^ (r.length - w) + bitsNat (r.drop w) := by
      conv => lhs; rw [← List.take_append_drop w r]
      rw [bitsNat_append, List.length_drop]
    have hlt := bitsNat_lt (r.drop w)
    rw [List.length_drop] at hlt ⊢
    have h2 : acc % 2 ^ (r.length - w) = acc % 2 ^ r.length % 2 ^ (r.length - w) := by
      rw [Nat.mod_mod_of_dvd]
      exact Nat.pow_dvd_pow 2 (by omega)
    rw [h2, h, h1, Nat.mul_add_mod', Nat.mod_eq_of_lt hlt]
  · rw [List.drop_of_length_le hw]; simp [bitsNat, Nat.mod_one]

theorem AccIs.mod {acc : Nat} {r : List Bool} (h : AccIs acc r) (k : Nat) (hk : r.length ≤ k) : AccIs (acc % 2 ^ k) r := by
  unfold AccIs at *
  rw [Nat.mod_mod_of_dvd _ (Nat.pow_dvd_pow 2 hk), h]

theorem AccIs.low {acc : Nat} {r : List Bool} (h : AccIs acc r) : acc &&& ((1 <<< r.length) - 1) = bitsNat r := by
  rw [Nat.shiftLeft_eq, Nat.one_mul, Nat.and_two_pow_sub_one_eq_mod, h]

theorem accIs_nil : AccIs 0 [] := by simp [AccIs, bitsNat]

theorem bitsNat_eq_zero_iff (r : List Bool) : bitsNat r = 0 ↔ r = zeros r.length := by
  constructor
  · intro h
    apply bitsNat_inj (by simp [zeros])
    rw [h, bitsNat_zeros]
  · intro h; rw [h, bitsNat_zeros]

/-! ### a bit-level reading machine -/

/-- read fields of `w` bits, a byte at a time, until `n` values are produced -/
def bm {α : Type} (n w : Nat) (post : Nat → Option α) (r : List Bool) (x : List α) (data : Bytes) :
    Option (List Bool × List α × Bytes) :=
  if x.length ≥ n then some (r, x, data)
  else if h : 0 < w ∧ w ≤ r.length then
    match post (bitsNat (r.take w)) with
    | none => none
    | some v => bm n w post (r.drop w) (x ++ [v]) data
  else match data with
    | [] => none
    | b :: data => bm n w post (r ++ natBits 8 b) x data
termination_by 9 * data.length + r.length
decreasing_by
  · simp only [List.length_drop]; omega
  · simp only [List.length_cons, List.length_append, natBits_length]; omega

/-- the first `m` fields of `w` bits -/
def fields (w : Nat) : Nat → List Bool → List Nat
  | 0, _ => []
  | m + 1, u => bitsNat (u.take w) :: fields w m (u.drop w)

@[simp] theorem fields_length (w m : Nat) (u : List Bool) : (fields w m u).length = m := by
  induction m generalizing u with
  | zero => rfl
  | succ m ih => simp [fields, ih]

theorem fields_lt (w m : Nat) (u : List Bool) (h : w * m ≤ u.length) : ∀ v ∈ fields w m u, v < 2 ^ w := by
  induction m generalizing u with
  | zero => intro v hv; simp [fields] at hv
  | succ m ih =>
    intro v hv
    rw [Nat.mul_succ] at h
    simp only [fields, List.mem_cons] at hv
    rcases hv with rfl | hv
    · have := bitsNat_lt (u.take w)
      rwa [List.length_take, Nat.min_eq_left (by omega)] at this
    · exact ih (u.drop w) (by simp; omega) v hv

theorem fieldBits_fields (w m : Nat) (u : List Bool) (h : w * m ≤ u.length) :
    fieldBits w (fields w m u) = u.take (w * m) := by
  induction m generalizing u with
  | zero => simp [fields, fieldBits]
  | succ m ih =>
    rw [Nat.mul_succ] at h ⊢
    have := ih (u.drop w) (by simp; omega)
    simp only [fieldBits, fields, List.flatMap_cons] at this ⊢
    rw [this, Nat.add_comm, List.take_add]
    congr 1
    have h8 : (u.take w).length = w := by simp; omega
    have h := natBits_bitsNat (u.take w)
    rwa [h8] at h

@[simp] theorem fieldBits_length (w : Nat) (vs : List Nat) : (fieldBits w vs).length = w * vs.length := by
  induction vs with
  | nil => simp [fieldBits]
  | cons v vs ih => 
    simp only [fieldBits, List.flatMap_cons, List.length_append, natBits_length, List.length_cons] at *
    rw [ih, Nat.mul_succ, Nat.add_comm]

theorem fields_fieldBits (w : Nat) (vs : List Nat) (t : List Bool) (h : ∀ v ∈ vs, v < 2 ^ w) :
    fields w vs.length (fieldBits w vs ++ t) = vs := by
  induction vs with
  | nil => rfl
  | cons v vs ih =>
    simp only [fieldBits, List.flatMap_cons, List.length_cons, fields, List.append_assoc] at *
    rw [List.take_append_of_le_length (by simp), List.take_of_length_le (by simp), bitsNat_natBits,
      List.drop_append_of_le_length (by simp), List.drop_of_length_le (by simp), List.nil_append,
      ih (fun v hv => h v (by simp [hv])), Nat.mod_eq_of_lt (h v (by simp))]

theorem fieldBits_inj (w : Nat) (u v : List Nat) (hu : ∀ c ∈ u, c < 2 ^ w) (hv : ∀ c ∈ v, c < 2 ^ w)
    (hl : u.length = v.length) (s t : List Bool) (h : fieldBits w u ++ s = fieldBits w v ++ t) : u = v ∧ s = t := by
  have h1 := fields_fieldBits w u s hu
  have h2 := fields_fieldBits w v t hv
  rw [h, hl, h2] at h1
  subst h1
  exact ⟨rfl, by simpa using h⟩

theorem bm_spec {α : Type} (n w : Nat) (post : Nat → Option α) (r : List Bool) (x : List α) (data : Bytes)
    (hw : 0 < w) (hx : x.length ≤ n) (hb : w * (n - x.length) ≤ r.length + 8 * data.length) :
    (∀ y, (fields w (n - x.length) (r ++ bytesBits data)).mapM post = some y →
      ∃ r' data', bm n w post r x data = some (r', x ++ y, data') ∧
        r' ++ bytesBits data' = (r ++ bytesBits data).drop (w * (n - x.length)) ∧
        data' <:+ data ∧ r'.length ≤ max 7 (r.length - w * (n - x.length))) ∧
    ((fields w (n - x.length) (r ++ bytesBits data)).mapM post = none → bm n w post r x data = none) := by
  fun_induction bm n w post r x data with
  | case1 r x data h =>
    have h0 : n - x.length = 0 := by omega
    rw [h0]
    simp only [fields, List.mapM_nil, Option.pure_def, Option.some.injEq]
    refine ⟨?_, by simp⟩
    rintro y rfl
    exact ⟨r, data, by simp, by simp, List.suffix_refl _, by omega⟩
  | case2 r x data h h1 hp =>
    obtain ⟨m, hm⟩ : ∃ m, n - x.length = m + 1 := ⟨n - x.length - 1, by omega⟩
    rw [hm]
    simp only [fields, List.mapM_cons]
    rw [List.take_append_of_le_length h1.2, hp]
    simp
  | case3 r x data h h1 v hp ih =>
    obtain ⟨m, hm⟩ : ∃ m, n - x.length = m + 1 := ⟨n - x.length - 1, by omega⟩
    have hm' : n - (x ++ [v]).length = m := by simp; omega
    rw [hm'] at ih
    rw [hm] at hb ⊢
    rw [Nat.mul_succ] at hb ⊢
    have ih := ih (by simp; omega) (by simp; omega)
    have e1 : List.drop w r ++ bytesBits data = (r ++ bytesBits data).drop w := by
      rw [List.drop_append_of_le_length h1.2]
    rw [e1] at ih
    simp only [fields, List.mapM_cons]
    rw [List.take_append_of_le_length h1.2, hp]
    simp only [Option.pure_def, Option.bind_eq_bind, Option.bind_some]
    constructor
    · intro y hy
      rw [Option.bind_eq_some_iff] at hy
      obtain ⟨y', hy', hy⟩ := hy
      simp only [Option.some.injEq] at hy
      subst hy
      obtain ⟨r', data', a1, a2, a3, a4⟩ := ih.1 y' hy'
      refine ⟨r', data', by rw [a1]; simp, ?_, a3, ?_⟩
      · rw [a2, List.drop_drop]; congr 1; omega
      · simp at a4; omega
    · intro hy
      apply ih.2
      cases hq : (fields w m ((r ++ bytesBits data).drop w)).mapM post with
      | none => rfl
      | some z => rw [hq] at hy; simp at hy
  | case4 r x h h1 =>
    exfalso
    have : 0 < n - x.length := by omega
    have hle : w * 1 ≤ w * (n - x.length) := Nat.mul_le_mul_left _ this
    simp at hb h1
    omega
  | case5 r x h h1 b data ih =>
    have e1 : r ++ natBits 8 b ++ bytesBits data = r ++ bytesBits (b :: data) := by simp
    rw [e1] at ih
    simp only [List.length_cons] at hb
    have ih := ih hx (by simp; omega)
    refine ⟨fun y hy => ?_, ih.2⟩
    obtain ⟨r', data', a1, a2, a3, a4⟩ := ih.1 y hy
    refine ⟨r', data', a1, a2, a3.trans (List.suffix_cons _ _), ?_⟩
    have : 0 < n - x.length := by omega
    have hle : w * 1 ≤ w * (n - x.length) := Nat.mul_le_mul_left _ this
    simp at a4 h1
    omega

/-! ### what a completed read means -/

/-- `post` decodes exactly the fields `enc c` of the admissible values `c` -/
structure FieldCode (α : Type) (w : Nat) (post : Nat → Option α) (enc : α → Nat) (ok : α → Prop) : Prop where
  dec : ∀ v, v < 2 ^ w → ∀ c, post v = some c ↔ (v = enc c ∧ ok c)
  lt : ∀ c, ok c → enc c < 2 ^ w

theorem mapM_fieldCode {α : Type} {w : Nat} {post : Nat → Option α} {enc : α → Nat} {ok : α → Prop}
    (H : FieldCode α w post enc ok) (l : List Nat) (hl : ∀ v ∈ l, v < 2 ^ w) (m : List α) :
    l.mapM post = some m ↔ l = m.map enc ∧ ∀ c ∈ m, ok c := by
  induction l generalizing m with
  | nil =>
    simp only [List.mapM_nil, Option.pure_def, Option.some.injEq]
    constructor
    · rintro rfl; simp
    · rintro ⟨h, _⟩; cases m with
      | nil => rfl
      | cons _ _ => simp at h
  | cons a l ih =>
    have ih := ih (fun v hv => hl v (by simp [hv]))
    simp only [List.mapM_cons, Option.pure_def, Option.bind_eq_bind, Option.bind_eq_some_iff, Option.some.injEq]
    constructor
    · rintro ⟨b, hb, m', hm', rfl⟩
      have h1 := (H.dec a (hl a (by simp)) b).1 hb
      have h2 := (ih m').1 hm'
      refine ⟨by simp [← h1.1, ← h2.1], ?_⟩
      intro c hc
      rcases List.mem_cons.1 hc with rfl | hc
      · exact h1.2
      · exact h2.2 c hc
    · rintro ⟨h1, h2⟩
      cases m with
      | nil => simp at h1
      | cons b m =>
        simp only [List.map_cons, List.cons.injEq] at h1
        refine ⟨b, (H.dec a (hl a (by simp)) b).2 ⟨h1.1, h2 b (by simp)⟩, m, (ih m).2 ⟨h1.2, fun c hc => h2 c (by simp [hc])⟩, rfl⟩

theorem packedLen_bounds (n w : Nat) : w * n ≤ 8 * packedLen n w ∧ 8 * packedLen n w < w * n + 8 := by
  unfold packedLen; rw [Nat.mul_comm n w]; omega

/-- the generic acceptance theorem for packed fields -/
theorem bm_accepts {α : Type} {w : Nat} {post : Nat → Option α} {enc : α → Nat} {ok : α → Prop}
    (H : FieldCode α w post enc ok) (hw : 0 < w) (n : Nat) (data : Bytes) (hd : IsBytes data)
    (hlen : packedLen n w ≤ data.length) (x : List α) :
    (∃ r' data', bm n w post [] [] data = some (r', x, data') ∧ bitsNat r' = 0) ↔
      x.length = n ∧ (∀ c ∈ x, ok c) ∧ IsPacking w (x.map enc) (data.take (packedLen n w)) := by
  have hp := packedLen_bounds n w
  have hbs := bm_spec n w post [] [] data hw (by simp) (by simp; omega)
  simp only [List.length_nil, Nat.sub_zero, List.nil_append] at hbs
  have hflt := fields_lt w n (bytesBits data) (by simp; omega)
  have hfb := fieldBits_fields w n (bytesBits data) (by simp; omega)
  have hsplit : bytesBits data = bytesBits (data.take (packedLen n w)) ++ bytesBits (data.drop (packedLen n w)) := by
    rw [← bytesBits_append, List.take_append_drop]
  have hlt : (bytesBits (data.take (packedLen n w))).length = 8 * packedLen n w := by
    simp; omega
  constructor
  · rintro ⟨r', data', hbm, hz⟩
    cases hm : (fields w n (bytesBits data)).mapM post with
    | none => rw [hbs.2 hm] at hbm; cases hbm
    | some y =>
      obtain ⟨r₁, d₁, a1, a2, a3, a4⟩ := hbs.1 y hm
      rw [a1] at hbm
      simp only [Option.some.injEq, Prod.mk.injEq] at hbm
      obtain ⟨rfl, rfl, rfl⟩ := hbm
      have hf := (mapM_fieldCode H _ hflt y).1 hm
      have hyl : y.length = n := by
        have := congrArg List.length hf.1; simpa using this.symm
      refine ⟨hyl, hf.2, ?_, ?_, ?_⟩
      · intro b hb; exact hd b (List.mem_of_mem_take hb)
      · simp [hyl]; omega
      · refine ⟨r₁.length, ?_⟩
        rw [← hf.1, hfb]
        rw [bitsNat_eq_zero_iff] at hz
        rw [← hz]
        have e1 : bytesBits data = (bytesBits data).take (w * n) ++ (r₁ ++ bytesBits d₁) := by
          rw [a2, List.take_append_drop]
        rw [← List.append_assoc] at e1
        rw [hsplit] at e1
        have hlen2 := congrArg List.length e1
        simp only [List.length_append, hlt, bytesBits_length, List.length_drop, List.length_take] at hlen2
        have := List.append_inj e1 (by simp; omega)
        rw [hsplit]
        exact this.1
  · rintro ⟨hxl, hok, hb, hl, k, hk⟩
    have hvlt : ∀ v ∈ x.map enc, v < 2 ^ w := by
      intro v hv; rw [List.mem_map] at hv; obtain ⟨c, hc, rfl⟩ := hv; exact H.lt c (hok c hc)
    have hff : fields w n (bytesBits data) = x.map enc := by
      rw [hsplit, hk, List.append_assoc]
      have := fields_fieldBits w (x.map enc) (zeros k ++ bytesBits (data.drop (packedLen n w))) hvlt
      rw [List.length_map, hxl] at this
      exact this
    have hm : (fields w n (bytesBits data)).mapM post = some x := by
      rw [mapM_fieldCode H _ hflt]
      exact ⟨hff, hok⟩
    obtain ⟨r', data', a1, a2, a3, a4⟩ := hbs.1 x hm
    refine ⟨r', data', a1, ?_⟩
    rw [hsplit, hk, List.append_assoc, List.drop_append_of_le_length (by simp [hxl]),
      List.drop_of_length_le (by simp [hxl]), List.nil_append] at a2
    have hk8 : k < 8 := by
      have := congrArg List.length hk
      rw [hlt] at this
      simp [zeros, hxl] at this
      omega
    have hl2 := congrArg List.length a2
    simp only [List.length_append, bytesBits_length, zeros, List.length_replicate] at hl2
    have hr7 : r'.length ≤ 7 := by simpa using a4
    have := (List.append_inj a2 (by simp [zeros]; omega)).1
    rw [this, bitsNat_zeros]

theorem bm_none_error {α : Type} {w : Nat} {post : Nat → Option α} (hw : 0 < w) (n : Nat) (r : List Bool) (data : Bytes) (x : List α) 
    (hx : x.length ≤ n) (h : bm n w post r x data = none) (hlen : w * (n - x.length) ≤ r.length + 8 * data.length) :
    (fields w (n - x.length) (r ++ bytesBits data)).mapM post = none := by
  have hbs := bm_spec n w post r x data hw hx hlen
  cases hm : (fields w (n - x.length) (r ++ bytesBits data)).mapM post with
  | none => rfl
  | some y => 
    obtain ⟨_, _, a1, _⟩ := hbs.1 y hm
    rw [a1] at h; cases h

/-! ### the concrete loops refine the machine -/

/-- the finishing check shared by both decoders -/
def finish {α : Type} : Option (List Bool × List α × Bytes) → Except Err (List α)
  | none => .error .valueError
  | some (r, x, _) => if bitsNat r ≠ 0 then .error .valueError else .ok x

/-- `post` for 14-bit residues -/
def modqPost (w : Nat) : Option Nat := if w ≥ 12289 then none else some w

theorem bm_done {α : Type} {n w : Nat} {post : Nat → Option α} {r : List Bool} {x : List α} {data : Bytes}
    (h : ¬ x.length < n) : bm n w post r x data = some (r, x, data) := by
  rw [bm.eq_def, if_pos (by omega)]

theorem bm_byte {α : Type} {n w : Nat} {post : Nat → Option α} {r : List Bool} {x : List α} {data : Bytes} {b : Nat}
    (h : x.length < n) (hr : r.length < w) : bm n w post r x (b :: data) = bm n w post (r ++ natBits 8 b) x data := by
  rw [bm.eq_def, if_neg (by omega), dif_neg (by omega)]

theorem bm_pop {α : Type} {n w : Nat} {post : Nat → Option α} {r : List Bool} {x : List α} {data : Bytes}
    (h : x.length < n) (hr : w ≤ r.length) (hw : 0 < w) : bm n w post r x data =
      match post (bitsNat (r.take w)) with
      | none => none
      | some v => bm n w post (r.drop w) (x ++ [v]) data := by
  rw [bm.eq_def, if_neg (by omega), dif_pos ⟨hw, hr⟩]

theorem modqDecLoop_eq (n : Nat) (acc : Nat) (r : List Bool) (x : List Nat) (data : Bytes) (hd : IsBytes data)
    (ha : AccIs acc r) (hr : r.length < 14) (hlen : 14 * (n - x.length) ≤ r.length + 8 * data.length) :
    modqDecLoop n acc r.length x data = finish (bm n 14 modqPost r x data) := by
  induction data generalizing acc r x with
  | nil =>
    by_cases h : x.length < n
    · exfalso; simp at hlen; omega
    · rw [bm_done h]; simp only [modqDecLoop, h, if_false, finish, ha.low]
  | cons b data ih =>
    have hb : b < 2 ^ 8 := hd b (by simp)
    have hd' : IsBytes data := fun c hc => hd c (by simp [hc])
    by_cases h : x.length < n
    · rw [bm_byte h hr]
      have ha' := ha.push 8 b hb
      simp only [List.length_cons] at hlen
      simp only [modqDecLoop, h, if_true]
      by_cases h14 : r.length + 8 ≥ 14
      · rw [if_pos h14]
        have hlr : (r ++ natBits 8 b).length = r.length + 8 := by simp
        have ht := ha'.top 14 (by omega)
        rw [hlr] at ht
        rw [bm_pop h (by omega) (by decide)]
        rw [show (0x3FFF : Nat) = 2 ^ 14 - 1 by decide, ht]
        unfold modqPost
        by_cases hq : bitsNat ((r ++ natBits 8 b).take 14) ≥ 12289
        · simp [hq, finish]
        · rw [if_neg hq]
          simp only [hq, if_false]
          have hdl : ((r ++ natBits 8 b).drop 14).length = r.length + 8 - 14 := by simp
          rw [← hdl]
          exact ih _ _ _ hd' (ha'.drop 14) (by omega) (by rw [hdl]; simp; omega)
      · rw [if_neg h14]
        have hlr : (r ++ natBits 8 b).length = r.length + 8 := by simp
        rw [← hlr]
        exact ih _ _ _ hd' ha' (by omega) (by omega)
    · rw [bm_done h]; simp only [modqDecLoop, h, if_false, finish, ha.low]

/-- `post` for signed fields -/
def trimPost (bits w : Nat) : Option Int :=
  if signExtend bits w = -((1 <<< (bits - 1) : Nat) : Int) then none else some (signExtend bits w)

theorem trimDrain_bm (n bits acc : Nat) (r : List Bool) (x : List Int) (data : Bytes) (ha : AccIs acc r) (hw : 0 < bits) :
    (∀ l y, trimDrain n bits acc r.length x = .ok (l, y) →
      ∃ r', l = r'.length ∧ AccIs acc r' ∧ bm n bits (trimPost bits) r x data = bm n bits (trimPost bits) r' y data ∧
        (y.length < n → r'.length < bits) ∧
        r'.length ≤ r.length ∧ bits * (n - y.length) + r.length ≤ bits * (n - x.length) + r'.length) ∧
    (∀ e, trimDrain n bits acc r.length x = .error e → e = .valueError ∧ bm n bits (trimPost bits) r x data = none) := by
  induction hl : r.length using Nat.strongRecOn generalizing r x with
  | _ k ih =>
    subst hl
    rw [trimDrain.eq_def]
    by_cases h : r.length ≥ bits ∧ x.length < n ∧ 0 < bits
    · rw [dif_pos h]
      simp only
      rw [bm_pop h.2.1 h.1 h.2.2]
      rw [Nat.shiftLeft_eq 1 bits, Nat.one_mul, ha.top bits h.1]
      unfold trimPost
      by_cases hq : signExtend bits (bitsNat (r.take bits)) = -((1 <<< (bits - 1) : Nat) : Int)
      · rw [if_pos hq]
        simp only [hq, if_true]
        refine ⟨by simp, ?_⟩
        intro e he; cases he; exact ⟨rfl, trivial⟩
      · rw [if_neg hq]
        simp only [hq, if_false]
        have hdl : (r.drop bits).length = r.length - bits := by simp
        have := ih (r.drop bits).length (by omega) (r.drop bits) (x ++ [signExtend bits (bitsNat (r.take bits))]) (ha.drop bits) rfl
        rw [hdl] at this
        refine ⟨?_, this.2⟩
        intro l y hy
        obtain ⟨r', b1, b2, b3, b4, b5, b6⟩ := this.1 l y hy
        refine ⟨r', b1, b2, b3, b4, by omega, ?_⟩
        have e : n - x.length = (n - (x ++ [signExtend bits (bitsNat (r.take bits))]).length) + 1 := by simp; omega
        rw [e, Nat.mul_succ]; omega
    · rw [dif_neg h]
      refine ⟨?_, by intro e he; cases he⟩
      intro l y hy
      simp only [Except.ok.injEq, Prod.mk.injEq] at hy
      obtain ⟨rfl, rfl⟩ := hy
      exact ⟨r, rfl, ha, rfl, by intro hy; omega, by omega, by omega⟩

theorem trimDecLoop_eq (n bits : Nat) (hw : 0 < bits) (acc : Nat) (r : List Bool) (x : List Int) (data : Bytes) (hd : IsBytes data)
    (ha : AccIs acc r) (hr : x.length < n → r.length < bits) (hlen : bits * (n - x.length) ≤ r.length + 8 * data.length) :
    trimDecLoop n bits acc r.length x data = finish (bm n bits (trimPost bits) r x data) := by
  induction data generalizing acc r x with
  | nil =>
    by_cases h : x.length < n
    · exfalso
      have : 0 < n - x.length := by omega
      have hle : bits * 1 ≤ bits * (n - x.length) := Nat.mul_le_mul_left _ this
      have := hr h
      simp at hlen; omega
    · rw [bm_done h]; simp only [trimDecLoop, h, if_false, finish, ha.low]
  | cons b data ih =>
    have hb : b < 2 ^ 8 := hd b (by simp)
    have hd' : IsBytes data := fun c hc => hd c (by simp [hc])
    by_cases h : x.length < n
    · rw [bm_byte h (hr h)]
      have ha' := ha.push 8 b hb
      simp only [List.length_cons] at hlen
      simp only [trimDecLoop, h, if_true]
      have hlr : (r ++ natBits 8 b).length = r.length + 8 := by simp
      have hdr := trimDrain_bm n bits _ (r ++ natBits 8 b) x data ha' hw
      rw [hlr] at hdr
      split
      · rename_i e he
        obtain ⟨h1, h2⟩ := hdr.2 e he
        rw [h2, h1]; rfl
      · rename_i l y he
        obtain ⟨r', b1, b2, b3, b4, b5, b6⟩ := hdr.1 l y he
        rw [b3, b1]
        exact ih _ _ _ hd' b2 b4 (by omega)
    · rw [bm_done h]; simp only [trimDecLoop, h, if_false, finish, ha.low]

/-! ### encoders -/

/-- invariant of the writing loops: `U` is what has been written so far -/
structure EncInv (U : List Bool) (acc accLen pos : Nat) (buf : Bytes) (L : Nat) : Prop where
  len : buf.length = L
  pos_le : pos ≤ L
  bytes : IsBytes buf
  zero : buf.drop pos = List.replicate (L - pos) 0
  split : ∃ r, U = bytesBits (buf.take pos) ++ r ∧ r.length = accLen ∧ AccIs acc r

theorem flush_spec (U : List Bool) (acc accLen pos : Nat) (buf : Bytes) (L : Nat) (h : EncInv U acc accLen pos buf L) :
    (U.length < 8 * (L + 1) → ∃ l p b, flush acc accLen pos buf = .ok (l, p, b) ∧ l < 8 ∧ EncInv U acc l p b L) ∧
    (8 * (L + 1) ≤ U.length → flush acc accLen pos buf = .error .indexError) := by
  induction hl : accLen using Nat.strongRecOn generalizing accLen pos buf with
  | _ k ih =>
    subst hl
    obtain ⟨r, h1, h2, h3⟩ := h.split
    have hU : U.length = 8 * pos + accLen := by
      rw [h1]; simp [h2, Nat.min_eq_left (show pos ≤ buf.length by rw [h.len]; exact h.pos_le)]
    rw [flush.eq_def]
    by_cases hk : accLen ≥ 8
    · rw [if_pos hk]
      by_cases hp : pos < buf.length
      · rw [if_pos hp]
        have hpL : pos < L := by rw [← h.len]; exact hp
        have ht := h3.top 8 (by omega)
        rw [h2] at ht
        have hv : bitsNat (r.take 8) < 256 := by
          have := bitsNat_lt (r.take 8); rwa [List.length_take, Nat.min_eq_left (by omega)] at this
        rw [show (0xFF : Nat) = 2 ^ 8 - 1 by decide, ht]
        have htake : (buf.set pos (bitsNat (r.take 8))).take (pos + 1) = buf.take pos ++ [bitsNat (r.take 8)] := by
          rw [List.take_succ]
          simp [List.take_set_of_le, hp]
        apply ih (accLen - 8) (by omega) (accLen - 8) (pos + 1) _ _ rfl
        refine ⟨by simp [h.len], by omega, ?_, ?_, ?_⟩
        · intro c hc
          rcases List.mem_or_eq_of_mem_set hc with hc | rfl
          · exact h.bytes c hc
          · exact hv
        · rw [List.drop_set_of_lt (by omega), show pos + 1 = pos + 1 from rfl, ← List.drop_drop, h.zero, List.drop_replicate]
          congr 1
        · refine ⟨r.drop 8, ?_, by simp [h2], h3.drop 8⟩
          rw [htake, bytesBits_append, h1]
          simp only [bytesBits_cons, bytesBits_nil, List.append_nil, List.append_assoc]
          congr 1
          have h8 : (r.take 8).length = 8 := by simp; omega
          have hh := natBits_bitsNat (r.take 8)
          rw [h8] at hh
          rw [hh, List.take_append_drop]
      · rw [if_neg hp]
        have : pos = L := by have := h.pos_le; rw [h.len] at hp; omega
        exact ⟨by intro hu; omega, fun _ => rfl⟩
    · rw [if_neg hk]
      refine ⟨fun _ => ⟨accLen, pos, buf, rfl, by omega, h⟩, ?_⟩
      intro hu
      have := h.pos_le
      omega

/-- the final partial byte -/
theorem finishEnc_spec (U : List Bool) (acc accLen pos : Nat) (buf : Bytes) (L : Nat) (h : EncInv U acc accLen pos buf L)
    (h8 : accLen < 8) (hU : U.length ≤ 8 * L) :
    ∃ y, (if accLen > 0 then
        if pos < buf.length then Except.ok (buf.set pos ((acc <<< (8 - accLen)) &&& 0xFF)) else .error Err.indexError
      else .ok buf) = .ok y ∧ IsBytes y ∧ y.length = L ∧ ∃ k, bytesBits y = U ++ zeros k := by
  obtain ⟨r, h1, h2, h3⟩ := h.split
  have hlen : U.length = 8 * pos + accLen := by
    rw [h1]; simp [h2, Nat.min_eq_left (show pos ≤ buf.length by rw [h.len]; exact h.pos_le)]
  have hz : ∀ m, bytesBits (List.replicate m 0) = zeros (8 * m) := by
    intro m
    induction m with
    | zero => rfl
    | succ m ih => 
      rw [List.replicate_succ, bytesBits_cons, ih, natBits_zero]
      simp only [zeros, List.replicate_append_replicate]; congr 1; omega
  by_cases h0 : accLen > 0
  · rw [if_pos h0]
    have hp : pos < buf.length := by rw [h.len]; omega
    have hpL : pos < L := by omega
    rw [if_pos hp]
    have hacc := h3.push (8 - accLen) 0 (Nat.pow_pos (by decide))
    rw [Nat.or_zero] at hacc
    have hv := hacc.top 8 (by simp; omega)
    have hl8 : (r ++ natBits (8 - accLen) 0).length = 8 := by simp; omega
    rw [hl8, Nat.sub_self, Nat.shiftRight_zero, List.take_of_length_le (by omega)] at hv
    rw [show (0xFF : Nat) = 2 ^ 8 - 1 by decide, hv]
    have hlt : bitsNat (r ++ natBits (8 - accLen) 0) < 256 := by
      have := bitsNat_lt (r ++ natBits (8 - accLen) 0); rwa [hl8] at this
    refine ⟨_, rfl, ?_, by simp [h.len], ?_⟩
    · intro c hc
      rcases List.mem_or_eq_of_mem_set hc with hc | rfl
      · exact h.bytes c hc
      · exact hlt
    · refine ⟨(8 - accLen) + 8 * (L - pos - 1), ?_⟩
      have e : buf.set pos (bitsNat (r ++ natBits (8 - accLen) 0)) =
          buf.take pos ++ bitsNat (r ++ natBits (8 - accLen) 0) :: List.replicate (L - pos - 1) 0 := by
        rw [List.set_eq_take_append_cons_drop, if_pos hp]
        congr 2
        rw [← List.drop_drop, h.zero, List.drop_replicate]
      have hh := natBits_bitsNat (r ++ natBits (8 - accLen) 0)
      rw [hl8] at hh
      rw [e, bytesBits_append, bytesBits_cons, hh, hz, natBits_zero, h1]
      simp only [zeros, List.append_assoc, List.replicate_append_replicate]
  · rw [if_neg h0]
    refine ⟨buf, rfl, h.bytes, h.len, 8 * (L - pos), ?_⟩
    have hr : r = [] := by
      cases r with
      | nil => rfl
      | cons _ _ => simp at h2; omega
    rw [h1, hr, List.append_nil, ← hz, ← h.zero, ← bytesBits_append, List.take_append_drop]

theorem EncInv.pushBits {U : List Bool} {acc accLen pos : Nat} {buf : Bytes} {L : Nat} (h : EncInv U acc accLen pos buf L)
    (w v : Nat) (hv : v < 2 ^ w) : EncInv (U ++ natBits w v) ((acc <<< w) ||| v) (accLen + w) pos buf L := by
  obtain ⟨r, h1, h2, h3⟩ := h.split
  exact ⟨h.len, h.pos_le, h.bytes, h.zero, r ++ natBits w v, by rw [h1, List.append_assoc], by simp [h2], h3.push w v hv⟩

theorem encInv_init (L : Nat) : EncInv [] 0 0 0 (List.replicate L 0) L :=
  ⟨by simp, by omega, by intro b hb; rw [List.mem_replicate] at hb; omega, by simp, [], by simp, rfl, accIs_nil⟩

theorem modqEncLoop_ok (x : List Int) (hx : ∀ c ∈ x, 0 ≤ c ∧ c < 12289) (U : List Bool) (acc accLen pos : Nat) (buf : Bytes) (L : Nat)
    (h : EncInv U acc accLen pos buf L) (h8 : accLen < 8) (hU : U.length + 14 * x.length ≤ 8 * L) :
    ∃ y, modqEncLoop x acc accLen pos buf = .ok y ∧ IsBytes y ∧ y.length = L ∧
      ∃ k, bytesBits y = U ++ fieldBits 14 (x.map Int.toNat) ++ zeros k := by
  induction x generalizing U acc accLen pos buf with
  | nil =>
    obtain ⟨y, a, b, c, k, d⟩ := finishEnc_spec U acc accLen pos buf L h h8 (by simpa using hU)
    exact ⟨y, by rw [modqEncLoop]; exact a, b, c, k, by simpa [fieldBits] using d⟩
  | cons c x ih =>
    have hc := hx c (by simp)
    simp only [List.length_cons] at hU
    have hp := h.pushBits 14 c.toNat (by simp; omega)
    obtain ⟨l, p, b, f1, f2, f3⟩ := (flush_spec _ _ _ _ _ _ hp).1 (by simp; omega)
    obtain ⟨y, a, b', c', k, d⟩ := ih (fun c hc => hx c (by simp [hc])) _ _ _ _ _ f3 f2 (by simp; omega)
    refine ⟨y, ?_, b', c', k, ?_⟩
    · rw [modqEncLoop, if_neg (by omega)]; simp only [f1]; exact a
    · rw [d]; simp [fieldBits]

theorem modqEncLoop_bad (x : List Int) (hx : ∃ c ∈ x, ¬ (0 ≤ c ∧ c < 12289)) (U : List Bool) (acc accLen pos : Nat) (buf : Bytes) (L : Nat)
    (h : EncInv U acc accLen pos buf L) (hU : U.length + 14 * x.length ≤ 8 * L + 7) :
    modqEncLoop x acc accLen pos buf = .error .valueError := by
  induction x generalizing U acc accLen pos buf with
  | nil => obtain ⟨c, hc, _⟩ := hx; simp at hc
  | cons c x ih =>
    rw [modqEncLoop]
    by_cases hc : c ≥ 12289 ∨ c < 0
    · rw [if_pos hc]
    · rw [if_neg hc]
      simp only [List.length_cons] at hU
      have hp := h.pushBits 14 c.toNat (by simp; omega)
      obtain ⟨l, p, b, f1, f2, f3⟩ := (flush_spec _ _ _ _ _ _ hp).1 (by simp; omega)
      simp only [f1]
      refine ih ?_ _ _ _ _ _ f3 (by simp; omega)
      obtain ⟨d, hd, hd'⟩ := hx
      rcases List.mem_cons.1 hd with rfl | hd
      · omega
      · exact ⟨d, hd, hd'⟩

theorem modqEncLoop_long (x : List Int) (U : List Bool) (acc accLen pos : Nat) (buf : Bytes) (L : Nat)
    (h : EncInv U acc accLen pos buf L) (hU0 : U.length ≤ 8 * L + 7) (hU : 8 * (L + 1) ≤ U.length + 14 * x.length) (y : Bytes) :
    modqEncLoop x acc accLen pos buf ≠ .ok y := by
  induction x generalizing U acc accLen pos buf with
  | nil => simp at hU; omega
  | cons c x ih =>
    rw [modqEncLoop]
    by_cases hc : c ≥ 12289 ∨ c < 0
    · rw [if_pos hc]; simp
    · rw [if_neg hc]
      simp only [List.length_cons] at hU
      have hp := h.pushBits 14 c.toNat (by simp; omega)
      by_cases hlen : (U ++ natBits 14 c.toNat).length < 8 * (L + 1)
      · obtain ⟨l, p, b, f1, f2, f3⟩ := (flush_spec _ _ _ _ _ _ hp).1 hlen
        simp only [f1]
        exact ih _ _ _ _ _ f3 (by omega) (by simp; omega)
      · simp only [(flush_spec _ _ _ _ _ _ hp).2 (by omega)]
        simp

theorem trimEncLoop_ok (bits : Nat) (x : List Int) (hx : ∀ c ∈ x, InRange bits c) (U : List Bool) (acc accLen pos : Nat) (buf : Bytes) (L : Nat)
    (h : EncInv U acc accLen pos buf L) (h8 : accLen < 8) (hU : U.length + bits * x.length ≤ 8 * L) :
    ∃ y, trimEncLoop bits x acc accLen pos buf = .ok y ∧ IsBytes y ∧ y.length = L ∧
      ∃ k, bytesBits y = U ++ fieldBits bits (x.map (twos bits)) ++ zeros k := by
  induction x generalizing U acc accLen pos buf with
  | nil =>
    obtain ⟨y, a, b, c, k, d⟩ := finishEnc_spec U acc accLen pos buf L h h8 (by simpa using hU)
    exact ⟨y, by rw [trimEncLoop]; exact a, b, c, k, by simpa [fieldBits] using d⟩
  | cons c x ih =>
    have hc := hx c (by simp)
    simp only [List.length_cons, Nat.mul_succ] at hU
    have hlt : (c % 2 ^ bits).toNat < 2 ^ bits := by
      have h1 := Int.emod_lt_of_pos c (show (0 : Int) < 2 ^ bits from Int.pow_pos (by decide))
      have h2 := Int.emod_nonneg c (show (2 ^ bits : Int) ≠ 0 from by have := Int.pow_pos (n := 2) (m := bits) (by decide); omega)
      have h3 : ((2 ^ bits : Nat) : Int) = 2 ^ bits := by simp
      omega
    have hp := h.pushBits bits _ hlt
    obtain ⟨l, p, b, f1, f2, f3⟩ := (flush_spec _ _ _ _ _ _ hp).1 (by simp; omega)
    obtain ⟨y, a, b', c', k, d⟩ := ih (fun c hc => hx c (by simp [hc])) _ _ _ _ _ f3 f2 (by simp; omega)
    refine ⟨y, ?_, b', c', k, ?_⟩
    · rw [trimEncLoop]; simp only; rw [if_neg (by unfold InRange at hc; omega)]; simp only [f1]; exact a
    · rw [d]; simp [fieldBits, twos]

theorem trimEncLoop_bad (bits : Nat) (x : List Int) (hx : ∃ c ∈ x, ¬ InRange bits c) (U : List Bool) (acc accLen pos : Nat) (buf : Bytes) (L : Nat)
    (h : EncInv U acc accLen pos buf L) (hU : U.length + bits * x.length ≤ 8 * L + 7) :
    trimEncLoop bits x acc accLen pos buf = .error .valueError := by
  induction x generalizing U acc accLen pos buf with
  | nil => obtain ⟨c, hc, _⟩ := hx; simp at hc
  | cons c x ih =>
    rw [trimEncLoop]
    simp only
    by_cases hc : c < -(2 ^ (bits - 1) - 1) ∨ c > 2 ^ (bits - 1) - 1
    · rw [if_pos hc]
    · rw [if_neg hc]
      simp only [List.length_cons, Nat.mul_succ] at hU
      have hlt : (c % 2 ^ bits).toNat < 2 ^ bits := by
        have h1 := Int.emod_lt_of_pos c (show (0 : Int) < 2 ^ bits from Int.pow_pos (by decide))
        have h2 := Int.emod_nonneg c (show (2 ^ bits : Int) ≠ 0 from by have := Int.pow_pos (n := 2) (m := bits) (by decide); omega)
        have h3 : ((2 ^ bits : Nat) : Int) = 2 ^ bits := by simp
        omega
      have hp := h.pushBits bits _ hlt
      obtain ⟨l, p, b, f1, f2, f3⟩ := (flush_spec _ _ _ _ _ _ hp).1 (by simp; omega)
      simp only [f1]
      refine ih ?_ _ _ _ _ _ f3 (by simp; omega)
      obtain ⟨d, hd, hd'⟩ := hx
      rcases List.mem_cons.1 hd with rfl | hd
      · exact absurd (by unfold InRange; omega) hd'
      · exact ⟨d, hd, hd'⟩

/-! ### field codes -/

theorem modq_fieldCode : FieldCode Nat 14 modqPost id (· < 12289) := by
  constructor
  · intro v _ c
    unfold modqPost
    split
    · simp; intro h; omega
    · simp; intro h; omega
  · intro c hc; simp; omega

theorem signExtend_eq (bits w : Nat) (hb : 0 < bits) (hw : w < 2 ^ bits) :
    signExtend bits w = if w < 2 ^ (bits - 1) then (w : Int) else (w : Int) - 2 ^ bits := by
  unfold signExtend
  have h2 : 2 ^ bits = 2 * 2 ^ (bits - 1) := by
    obtain ⟨k, rfl⟩ : ∃ k, bits = k + 1 := ⟨bits - 1, by omega⟩
    simp [Nat.pow_succ]; omega
  have key : w &&& (1 <<< (bits - 1)) ≠ 0 ↔ ¬ w < 2 ^ (bits - 1) := by
    rw [Nat.shiftLeft_eq, Nat.one_mul]
    have hz : w &&& 2 ^ (bits - 1) = 0 ↔ w.testBit (bits - 1) = false := by
      constructor
      · intro h
        have := congrArg (fun z => Nat.testBit z (bits - 1)) h
        simpa [Nat.testBit_and] using this
      · intro h
        apply Nat.eq_of_testBit_eq
        intro i
        rw [Nat.testBit_and, Nat.testBit_two_pow, Nat.zero_testBit]
        by_cases hi : bits - 1 = i
        · subst hi; simp [h]
        · simp [hi]
    rw [Ne, hz, Nat.testBit_eq_decide_div_mod_eq]
    have hp : 0 < 2 ^ (bits - 1) := Nat.pow_pos (by decide)
    by_cases hlt : w < 2 ^ (bits - 1)
    · simp [Nat.div_eq_of_lt hlt, hlt]
    · have hd : w / 2 ^ (bits - 1) = 1 := by
        apply Nat.div_eq_of_lt_le <;> omega
      simp [hd, hlt]
  by_cases h : w < 2 ^ (bits - 1)
  · rw [if_neg (by rw [key]; omega), if_pos h]
  · rw [if_pos (key.2 h), if_neg h]

theorem trim_fieldCode (bits : Nat) (hb : 0 < bits) : FieldCode Int bits (trimPost bits) (twos bits) (InRange bits) := by
  have h2 : (2 : Int) ^ bits = 2 * 2 ^ (bits - 1) := by
    obtain ⟨k, rfl⟩ : ∃ k, bits = k + 1 := ⟨bits - 1, by omega⟩
    simp [Int.pow_succ]; omega
  have hc1 : ((2 ^ bits : Nat) : Int) = 2 ^ bits := by simp
  have hc2 : ((2 ^ (bits - 1) : Nat) : Int) = 2 ^ (bits - 1) := by simp
  have hpos : (0 : Int) < 2 ^ (bits - 1) := Int.pow_pos (by decide)
  constructor
  · intro v hv c
    unfold trimPost InRange twos
    rw [signExtend_eq bits v hb hv, Nat.shiftLeft_eq, Nat.one_mul, hc2]
    constructor
    · intro h
      by_cases hlt : v < 2 ^ (bits - 1)
      · rw [if_pos hlt] at h
        split at h
        · cases h
        · cases h
          rw [Int.emod_eq_of_lt (by omega) (by omega)]
          simp; omega
      · rw [if_neg hlt] at h
        split at h
        · cases h
        · cases h
          refine ⟨?_, by omega⟩
          rw [Int.sub_emod_right, Int.emod_eq_of_lt (by omega) (by omega)]
          simp
    · rintro ⟨h1, h3⟩
      by_cases hneg : c < 0
      · have : c % 2 ^ bits = c + 2 ^ bits := by
          rw [← Int.add_emod_right, Int.emod_eq_of_lt (by omega) (by omega)]
        rw [this] at h1
        have hlt : ¬ v < 2 ^ (bits - 1) := by omega
        rw [if_neg hlt, if_neg (by omega)]
        congr 1; omega
      · rw [Int.emod_eq_of_lt (by omega) (by omega)] at h1
        have hlt : v < 2 ^ (bits - 1) := by omega
        rw [if_pos hlt, if_neg (by omega)]
        congr 1; omega
  · intro c hc
    unfold twos
    have h1 := Int.emod_lt_of_pos c (show (0 : Int) < 2 ^ bits by omega)
    have h3 := Int.emod_nonneg c (show (2 ^ bits : Int) ≠ 0 by omega)
    omega

end Verif.Codec
