import Verif.CRef.ApiLemmas

/-! # Properties C81, C82, C83: opening signed messages with the C code -/

namespace Verif.CRef
open Verif Verif.Hash Verif.Falcon Verif.Codec.Spec Verif.CRef.CodecSpec

/-! ## Public keys -/

theorem same_transform {h t u : List Nat} (ht : NTT.IsTransform h t) (hu : NTT.IsTransform h u) : u = t := by
  obtain ⟨⟨t1, t2⟩, t3⟩ := ht
  obtain ⟨⟨u1, u2⟩, u3⟩ := hu
  apply List.ext_getElem (u1.trans t1.symm)
  intro i i1 i2
  have hi : i < 512 := by omega
  have e := (u3 i hi).trans (t3 i hi).symm
  rw [ZMod.natCast_eq_natCast_iff'] at e
  simp only [List.getD_eq_getElem?_getD, List.getElem?_eq_getElem i1, List.getElem?_eq_getElem i2, Option.getD_some] at e
  rwa [Nat.mod_eq_of_lt (u2 _ (List.getElem_mem _)), Nat.mod_eq_of_lt (t2 _ (List.getElem_mem _))] at e

theorem transform_iff (h t : List Nat) (hh : NTT.Poly512 h) : NTT.IsTransform h t ↔ toNtt 9 h = t := by
  have h1 := (C76_contract h hh).2
  exact ⟨fun ht => same_transform ht h1, fun e => e ▸ h1⟩

theorem montyOf (x : Nat) (hx : x < 12289) : u16 (mqMontymul x 10952) = x * 4091 % 12289 := by
  have h := mqMontymul_eq x 10952 hx (by norm_num)
  have h2 : x * 10952 * 2304 % 12289 < 12289 := Nat.mod_lt _ (by norm_num)
  unfold u16
  rw [h, Nat.mod_eq_of_lt (by omega), show x * 10952 * 2304 = x * 4091 + 12289 * (x * 2053) by ring, Nat.add_mul_mod_self_left]

theorem toMonty_eq (t : List Nat) (ht : Poly 512 t) : toMonty t = polyToMonty 9 t := by
  obtain ⟨h1, h2⟩ := ht
  unfold toMonty polyToMonty
  rw [e512, ← h1]
  clear h1
  have key : ∀ f : Nat → Nat, (List.range t.length).map (fun u => f t[u]!) = t.map f := by
    intro f
    apply List.ext_getElem
    · simp
    · intro i i1 i2
      rw [List.length_map] at i2
      simp [i2]
  rw [key fun x => u16 (mqMontymul x 10952)]
  exact List.map_congr_left fun x hx => (montyOf x (h2 x hx)).symm

theorem key16_iff (pk : Bytes) (hb : IsBytes pk) (hl : pk.length = 1025) (H : List Nat) :
    (pk.getD 0 0 = 9 ∧ key16 (pk.drop 1) = some H) ↔ ∃ h, IsKey16 h pk ∧ H = toNttMonty 9 h := by
  obtain ⟨x, d, rfl⟩ : ∃ x d, pk = x :: d := by
    match pk, hl with
    | x :: d, _ => exact ⟨x, d, rfl⟩
  rw [isBytes_cons] at hb
  have hdl : d.length = 1024 := by simpa using hl
  have hdt : d.take (1025 - 1) = d := List.take_of_length_le (by omega)
  have ho : outLen 512 16 = 1024 := by decide
  have hp : packedLen (2 ^ 9) 16 = 1024 := by decide
  have hdec := fun t => (C79_modq_decode 16 (Or.inr rfl) 9 d hb.2 t).1
  rw [hp] at hdec
  have hdt2 : d.take 1024 = d := hdt
  rw [hdt2] at hdec
  unfold key16 IsKey16
  simp only [List.getD_cons_zero, List.drop_succ_cons, List.drop_zero, hdt, ho]
  constructor
  · rintro ⟨rfl, h2⟩
    cases hc : modqDecodeW 16 9 d with
    | error e => rw [hc] at h2; cases h2
    | ok t =>
      rw [hc] at h2
      simp only at h2
      rw [if_neg (by decide)] at h2
      obtain ⟨_, t1, t2, t3⟩ := (hdec t).1 hc
      rw [packing16_iff _ (fun w hw => by have := t2 w hw; omega)] at t3
      rw [e512] at t1
      have hmod : t.map (· % 12289) = t := by
        conv_rhs => rw [← List.map_id t]
        exact List.map_congr_left fun y hy => Nat.mod_eq_of_lt (t2 y hy)
      obtain ⟨h, ⟨hh, htr⟩, _⟩ := NTT.C33_every_key t t1
      rw [hmod] at htr
      refine ⟨h, ⟨t, hh, htr, by rw [t3]⟩, ?_⟩
      have := Option.some.inj h2
      rw [← this, toMonty_eq t ⟨t1, t2⟩]
      unfold toNttMonty
      rw [show mqNTT 9 h = t from (transform_iff h t hh).1 htr]
  · rintro ⟨h, ⟨t, hh, htr, hpk⟩, hH⟩
    rw [hH]
    obtain ⟨rfl, rfl⟩ := List.cons.inj hpk
    have ht := htr.1
    have hc : modqDecodeW 16 9 (be16 t) = .ok t := by
      rw [hdec]
      refine ⟨by rw [be16_length, ht.1], by rw [ht.1, e512], ht.2, (packing16_iff _ (fun w hw => by have := ht.2 w hw; omega) _).2 rfl⟩
    refine ⟨rfl, ?_⟩
    rw [hc]
    simp only
    rw [if_neg (by decide), toMonty_eq t ht, ← (transform_iff h t hh).1 htr]
    rfl

theorem key14_iff (pk : Bytes) (hb : IsBytes pk) (hl : pk.length = 897) (H : List Nat) :
    (pk.getD 0 0 = 9 ∧ key14 (pk.drop 1) = some H) ↔ ∃ h, IsKey14 h pk ∧ H = toNttMonty 9 h := by
  obtain ⟨x, d, rfl⟩ : ∃ x d, pk = x :: d := by
    match pk, hl with
    | x :: d, _ => exact ⟨x, d, rfl⟩
  rw [isBytes_cons] at hb
  have hdl : d.length = 896 := by simpa using hl
  have hdt : d.take (897 - 1) = d := List.take_of_length_le (by omega)
  have ho : outLen 512 14 = 896 := by decide
  have hp : packedLen (2 ^ 9) 14 = 896 := by decide
  have hdec := fun t => (C79_modq_decode 14 (Or.inl rfl) 9 d hb.2 t).1
  rw [hp] at hdec
  have hdt2 : d.take 896 = d := hdt
  rw [hdt2] at hdec
  unfold key14 IsKey14
  simp only [List.getD_cons_zero, List.drop_succ_cons, List.drop_zero, hdt, ho]
  constructor
  · rintro ⟨rfl, h2⟩
    cases hc : modqDecodeW 14 9 d with
    | error e => rw [hc] at h2; cases h2
    | ok h =>
      rw [hc] at h2
      simp only at h2
      rw [if_neg (by decide)] at h2
      obtain ⟨_, t1, t2, t3⟩ := (hdec h).1 hc
      rw [e512] at t1
      exact ⟨h, ⟨d, ⟨t1, t2⟩, t3, rfl⟩, (Option.some.inj h2).symm⟩
  · rintro ⟨h, ⟨y, hh, hy, hpk⟩, hH⟩
    rw [hH]
    obtain ⟨rfl, rfl⟩ := List.cons.inj hpk
    have hc : modqDecodeW 14 9 d = .ok h := by
      rw [hdec]
      exact ⟨by omega, by rw [hh.1, e512], hh.2, hy⟩
    refine ⟨rfl, ?_⟩
    rw [hc]
    simp only
    rw [if_neg (by decide)]

/-! ## C81 -/

theorem vec16_value (ws : List Nat) (hl : ws.length = 512) (hw : ∀ w ∈ ws, Word16 w) : Vec16 512 (ws.map value16) := by
  refine ⟨by simpa using hl, fun x hx => ?_⟩
  obtain ⟨w, hm, rfl⟩ := List.mem_map.1 hx
  have := hw w hm
  unfold Word16 at this
  unfold IsInt16 value16
  split
  · omega
  · split <;> omega

theorem verify512 (h hm : List Nat) (s : List Int) (hh : NTT.Poly512 h) (hc : Poly 512 hm) (hs : Vec16 512 s) :
    verifyRaw 9 hm s (toNttMonty 9 h) = true ↔ Accepts 512 34034726 h hm s := by
  have := C77_verify_raw 9 (by norm_num) h hm s (by rw [e512]; exact hh) (by rw [e512]; exact hc) (by rw [e512]; exact hs)
  rw [e512] at this
  exact this

/-- **C81**: `zknox_crypto_sign_open` returns 0 and the message `m` exactly when the public key is a key in the 16-bit format and the input is a signed message for `m` under it. -/
theorem C81_open16 (eth : Bool) (sm pk m : Bytes) (hb : IsBytes sm) (hp : IsBytes pk) (hl : pk.length = 1025) :
    (∃ fuel, signOpen16 eth fuel sm pk = .done m) ↔ ∃ h, IsKey16 h pk ∧ Signed16 eth h m sm := by
  unfold signOpen16
  rw [open_done _ _ _ _ _ _ hb]
  have ho : outLen 512 16 = 1024 := by decide
  constructor
  · rintro ⟨hpk, H, hk, nonce, e, s, hm, p1, p2, p3, p4, p5, p6⟩
    obtain ⟨h, hkey, hH⟩ := (key16_iff pk hp hl H).1 ⟨hpk, hk⟩
    rw [hH] at p6
    have he : IsBytes e := by
      rw [p3, isBytes_append, isBytes_cons] at hb
      exact hb.2.2
    unfold decSig16 at p4
    cases hc : compDecode16 9 e with
    | error x => rw [hc] at p4; cases p4
    | ok x =>
      rw [hc] at p4
      simp only [Option.some.injEq, Prod.mk.injEq] at p4
      obtain ⟨rfl, p4⟩ := p4
      obtain ⟨ws, rest, q1, q2, q3, rfl⟩ := ((C78_comp_decode16 9 e he x).1).1 hc
      rw [e512] at q2
      have hel : e.length = 1024 := by omega
      obtain rfl : rest = [] := by
        apply List.eq_nil_of_length_eq_zero
        have := congrArg List.length q1
        rw [List.length_append, be16_length] at this
        omega
      rw [List.append_nil] at q1
      refine ⟨h, hkey, nonce, ws, hm, p1, ?_, q2, q3, p5, (verify512 h hm _ (by obtain ⟨_, hh, _⟩ := hkey; exact hh) (hashes_poly p5) (vec16_value ws q2 q3)).1 p6⟩
      rw [p3, hel, q1]
  · rintro ⟨h, hkey, nonce, ws, hm, p1, p3, q2, q3, p5, p6⟩
    obtain ⟨hpk, hk⟩ := (key16_iff pk hp hl _).2 ⟨h, hkey, rfl⟩
    have hel : (be16 ws).length = 1024 := by rw [be16_length, q2]
    have hww : ∀ w ∈ ws, w < 65536 := fun w hw => by have := q3 w hw; unfold Word16 at this; omega
    refine ⟨hpk, _, hk, nonce, be16 ws, ws.map value16, hm, p1, by omega, by rw [hel]; exact p3, ?_, p5,
      (verify512 h hm _ (by obtain ⟨_, hh, _⟩ := hkey; exact hh) (hashes_poly p5) (vec16_value ws q2 q3)).2 p6⟩
    unfold decSig16
    rw [((C78_comp_decode16 9 (be16 ws) (be16_bytes ws hww) (ws.map value16)).1).2 ⟨ws, [], by simp, by rw [q2, e512], q3, rfl⟩]
    simp only [ho, hel]

/-- **C81**, NIST format: `crypto_sign_open` returns 0 and `m` exactly for a key in the 14-bit format and a signed message with a compressed signature under it. -/
theorem C81_open14 (eth : Bool) (sm pk m : Bytes) (hb : IsBytes sm) (hp : IsBytes pk) (hl : pk.length = 897) :
    (∃ fuel, signOpen eth fuel sm pk = .done m) ↔ ∃ h, IsKey14 h pk ∧ Signed14 eth h m sm := by
  unfold signOpen
  rw [open_done _ _ _ _ _ _ hb]
  have hvec : ∀ s : List Int, s.length = 512 → (∀ c ∈ s, c.natAbs ≤ 2047) → Vec16 512 s := fun s h1 h2 => ⟨h1, fun x hx => by
    have := h2 x hx
    unfold IsInt16
    omega⟩
  constructor
  · rintro ⟨hpk, H, hk, nonce, e, s, hm, p1, p2, p3, p4, p5, p6⟩
    obtain ⟨h, hkey, hH⟩ := (key14_iff pk hp hl H).1 ⟨hpk, hk⟩
    rw [hH] at p6
    have he : IsBytes e := by
      rw [p3, isBytes_append, isBytes_cons] at hb
      exact hb.2.2
    obtain ⟨d1, d2, d3, d4, d5⟩ := (C79_comp_decode 9 e he s e.length).1 p4
    rw [e512] at d1
    rw [List.take_length] at d5
    exact ⟨h, hkey, nonce, e, s, hm, p1, p3, ⟨d1, d2, d3, d5⟩, p5,
      (verify512 h hm _ (by obtain ⟨_, hh, _⟩ := hkey; exact hh) (hashes_poly p5) (hvec s d1 d2)).1 p6⟩
  · rintro ⟨h, hkey, nonce, e, s, hm, p1, p3, ⟨d1, d2, d3, d5⟩, p5, p6⟩
    obtain ⟨hpk, hk⟩ := (key14_iff pk hp hl _).2 ⟨h, hkey, rfl⟩
    have he : IsBytes e := by
      rw [p3, isBytes_append, isBytes_cons] at hb
      exact hb.2.2
    have hlen : e.length + 1 < 65536 := by
      rw [p3] at hb
      have h256 : (e.length + 1) / 256 < 256 := hb _ (by simp)
      omega
    refine ⟨hpk, _, hk, nonce, e, s, hm, p1, hlen, p3, ?_, p5,
      (verify512 h hm _ (by obtain ⟨_, hh, _⟩ := hkey; exact hh) (hashes_poly p5) (hvec s d1 d2)).2 p6⟩
    rw [C79_comp_decode 9 e he]
    exact ⟨by rw [d1, e512], d2, d3, Nat.le_refl _, by rw [List.take_length]; exact d5⟩

end Verif.CRef
