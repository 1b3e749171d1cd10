import Verif.CRef.ApiEpervier

/-! # Property C84, consequences: what is not checked, keys transformed twice, signing and opening -/

namespace Verif.CRef
open Verif Verif.Hash Verif.Ring Verif.Falcon Verif.Codec Verif.Codec.Spec Verif.CRef.CodecSpec

theorem word16_bytes (ws : List Nat) (h : ∀ w ∈ ws, Word16 w) : IsBytes (be16 ws) := be16_bytes ws fun w hw => by have := h w hw; unfold Word16 at this; omega

theorem word16_lt {ws : List Nat} (h : ∀ w ∈ ws, Word16 w) : ∀ w ∈ ws, w < 65536 := fun w hw => by have := h w hw; unfold Word16 at this; omega

/-- The words of both halves are determined by the bytes. -/
theorem halves_unique {a a' b b' : List Nat} {r r' : Bytes} (ha : ∀ w ∈ a, Word16 w) (ha' : ∀ w ∈ a', Word16 w) (hb : ∀ w ∈ b, Word16 w) (hb' : ∀ w ∈ b', Word16 w)
    (la : a.length = 512) (la' : a'.length = 512) (lb : b.length = 512) (lb' : b'.length = 512) (h : be16 a ++ 0x29 :: (be16 b ++ r) = be16 a' ++ 0x29 :: (be16 b' ++ r')) :
    a = a' ∧ b = b' ∧ r = r' := by
  obtain ⟨h1, h2⟩ := List.append_inj h (by rw [be16_length, be16_length, la, la'])
  obtain ⟨h3, h4⟩ := List.append_inj (List.cons.inj h2).2 (by rw [be16_length, be16_length, lb, lb'])
  exact ⟨be16_inj (word16_lt ha) (word16_lt ha') h1, be16_inj (word16_lt hb) (word16_lt hb') h3, h4⟩

/-- The key is determined by the pair and the hash. -/
theorem recovers_unique {h h' hm : List Nat} {s1 s2 : List Int} (hh : NTT.Poly512 h) (hh' : NTT.Poly512 h') (hc : Poly 512 hm) (h1 : Vec16 512 s1) (h2 : Vec16 512 s2)
    (r : Recovers h hm s1 s2) (r' : Recovers h' hm s1 s2) : h = h' := by
  obtain ⟨a, _, c⟩ := C85_recover (k := 9) (by norm_num) hm s1 s2 (by rw [e512]; exact hc) (by rw [e512]; exact h1) (by rw [e512]; exact h2)
  rw [e512] at a c
  have hb : ((l2bound[9]! : ℕ) : ℤ) = 34034726 := by decide
  rw [hb] at a
  have hv := a.2 ⟨r.2.1, r.1⟩
  have c2 := (c hv).2
  rw [(c2 h).1 ⟨hh, r.2.2⟩, (c2 h').1 ⟨hh', r'.2.2⟩]

/-- A signed message determines the key it recovers. -/
theorem signedEp_unique {mem m sm : Bytes} {h h' : List Nat} (hh : NTT.Poly512 h) (hh' : NTT.Poly512 h') (s : SignedEp mem h m sm) (s' : SignedEp mem h' m sm) : h = h' := by
  obtain ⟨n, e, w1, w2, r, hm, p1, p2, p3, p4, l1, l2, q1, q2, p5, p6⟩ := s
  obtain ⟨n', e', w1', w2', r', hm', p1', p2', p3', p4', l1', l2', q1', q2', p5', p6'⟩ := s'
  obtain ⟨u1, u2⟩ := parts_unique (a := [(e.length + 1) / 256, (e.length + 1) % 256]) (b := [(e'.length + 1) / 256, (e'.length + 1) % 256]) p1 p1' rfl (p3.symm.trans p3')
  rw [← u2, p4] at p4'
  obtain ⟨v1, v2, _⟩ := halves_unique q1 q1' q2 q2' l1 l1' l2 l2' p4'
  rw [← u1] at p5'
  rw [← v1, ← v2, ← hashes_unique p5 p5'] at p6'
  exact recovers_unique hh hh' (hashes_poly p5) (vec16_value _ l1 q1) (vec16_value _ l2 q2) p6 p6'

/-- **C84** (complete messages): when the announced signature length is at least 2050, the memory behind the message does not matter. -/
theorem C84_complete (mem mem' sm pk m : Bytes) (hb : IsBytes sm) (hmem : IsBytes mem) (hmem' : IsBytes mem') (hp : IsBytes pk) (hl : pk.length = 1025)
    (hs : 2050 ≤ 256 * sm.getD 0 0 + sm.getD 1 0) : (∃ fuel, signOpenEpervier fuel mem sm pk = .done m) ↔ ∃ fuel, signOpenEpervier fuel mem' sm pk = .done m := by
  rw [C84_open mem sm pk m hb hmem hp hl, C84_open mem' sm pk m hb hmem' hp hl]
  have key : ∀ (u v : Bytes) h, SignedEp u h m sm → SignedEp v h m sm := by
    rintro u v h ⟨n, e, w1, w2, r, hm, p1, p2, p3, p4, l1, l2, q1, q2, p5, p6⟩
    have g0 : sm.getD 0 0 = (e.length + 1) / 256 := by rw [p3]; rfl
    have g1 : sm.getD 1 0 = (e.length + 1) % 256 := by rw [p3]; rfl
    rw [g0, g1] at hs
    have he : 2049 ≤ e.length := by omega
    refine ⟨n, e, w1, w2, e.drop 2049 ++ v, hm, p1, p2, p3, ?_, l1, l2, q1, q2, p5, p6⟩
    have ht := congrArg (List.take 2049) p4
    rw [List.take_append_of_le_length he] at ht
    have e2 : be16 w1 ++ 0x29 :: (be16 w2 ++ r) = (be16 w1 ++ 0x29 :: be16 w2) ++ r := by simp
    have lw : (be16 w1 ++ 0x29 :: be16 w2).length = 2049 := by rw [List.length_append, List.length_cons, be16_length, be16_length, l1, l2]
    rw [e2, List.take_append_of_le_length (by omega), (List.take_of_length_le (by omega) : List.take 2049 (be16 w1 ++ 0x29 :: be16 w2) = _)] at ht
    conv_lhs => rw [← List.take_append_drop 2049 e, ht]
    simp
  exact ⟨fun ⟨h, k, s⟩ => ⟨h, k, key _ _ h s⟩, fun ⟨h, k, s⟩ => ⟨h, k, key _ _ h s⟩⟩

/-- **C84 is false of the hint and of trailing bytes**: in an accepted signed message whatever follows the two halves (the hint among it) may be replaced by any bytes. -/
theorem C84_hint_false (pk m nonce : Bytes) (w1 w2 : List Nat) (rest rest' : Bytes) (hp : IsBytes pk) (hl : pk.length = 1025) (hn : nonce.length = 40) (hb : IsBytes (nonce ++ m))
    (h1 : ∀ w ∈ w1, Word16 w) (h2 : ∀ w ∈ w2, Word16 w) (l1 : w1.length = 512) (l2 : w2.length = 512) (hr : IsBytes rest) (hr' : IsBytes rest') (hrl : rest.length ≤ 60000)
    (hrl' : rest'.length ≤ 60000)
    (ho : ∃ fuel, signOpenEpervier fuel [] ([(2050 + rest.length) / 256, (2050 + rest.length) % 256] ++ nonce ++ m ++ 0x29 :: (be16 w1 ++ 0x29 :: (be16 w2 ++ rest))) pk = .done m) :
    ∃ fuel, signOpenEpervier fuel [] ([(2050 + rest'.length) / 256, (2050 + rest'.length) % 256] ++ nonce ++ m ++ 0x29 :: (be16 w1 ++ 0x29 :: (be16 w2 ++ rest'))) pk = .done m := by
  rw [isBytes_append] at hb
  have hnil : IsBytes [] := by intro b hb; cases hb
  have hbs : ∀ r, IsBytes r → r.length ≤ 60000 → IsBytes ([(2050 + r.length) / 256, (2050 + r.length) % 256] ++ nonce ++ m ++ 0x29 :: (be16 w1 ++ 0x29 :: (be16 w2 ++ r))) := by
    intro r hr hl
    exact isBytes_append.2 ⟨isBytes_append.2 ⟨isBytes_append.2 ⟨isBytes_cons.2 ⟨by omega, isBytes_cons.2 ⟨by omega, hnil⟩⟩, hb.1⟩, hb.2⟩,
      isBytes_cons.2 ⟨by decide, isBytes_append.2 ⟨word16_bytes _ h1, isBytes_cons.2 ⟨by decide, isBytes_append.2 ⟨word16_bytes _ h2, hr⟩⟩⟩⟩⟩
  have hlen : ∀ r : Bytes, (be16 w1 ++ 0x29 :: (be16 w2 ++ r)).length + 1 = 2050 + r.length := by
    intro r
    rw [List.length_append, List.length_cons, List.length_append, be16_length, be16_length, l1, l2]
    omega
  rw [C84_open _ _ _ _ (hbs _ hr hrl) hnil hp hl] at ho
  rw [C84_open _ _ _ _ (hbs _ hr' hrl') hnil hp hl]
  obtain ⟨h, hk, n, e, v1, v2, r, hm, p1, p2, p3, p4, k1, k2, q1, q2, p5, p6⟩ := ho
  obtain ⟨u1, u2⟩ := parts_unique (a := [_, _]) (b := [_, _]) hn p1 (by simp only [List.length_cons]) p3
  rw [← u2, List.append_nil] at p4
  obtain ⟨x1, x2, _⟩ := halves_unique h1 q1 h2 q2 l1 k1 l2 k2 p4
  rw [← x1, ← x2] at p6
  rw [← u1] at p5
  exact ⟨h, hk, nonce, be16 w1 ++ 0x29 :: (be16 w2 ++ rest'), w1, w2, rest', hm, hn, by rw [hlen]; omega, by rw [hlen], by rw [List.append_nil], l1, l2, h1, h2, p5, p6⟩

/-- **C84 is false of the announced length**: a message whose announced signature has one byte only (the header) is accepted if the two halves lie in memory behind it; without them it is not.
The function reads beyond its input. -/
theorem C84_memory_false (pk m nonce : Bytes) (w1 w2 : List Nat) (rest : Bytes) (hp : IsBytes pk) (hl : pk.length = 1025) (hn : nonce.length = 40) (hb : IsBytes (nonce ++ m))
    (h1 : ∀ w ∈ w1, Word16 w) (h2 : ∀ w ∈ w2, Word16 w) (l1 : w1.length = 512) (l2 : w2.length = 512) (hr : IsBytes rest) (hrl : rest.length ≤ 60000)
    (ho : ∃ fuel, signOpenEpervier fuel [] ([(2050 + rest.length) / 256, (2050 + rest.length) % 256] ++ nonce ++ m ++ 0x29 :: (be16 w1 ++ 0x29 :: (be16 w2 ++ rest))) pk = .done m) :
    (∃ fuel, signOpenEpervier fuel (be16 w1 ++ 0x29 :: be16 w2) ([0, 1] ++ nonce ++ m ++ [0x29]) pk = .done m) ∧
    ¬ ∃ fuel, signOpenEpervier fuel [] ([0, 1] ++ nonce ++ m ++ [0x29]) pk = .done m := by
  rw [isBytes_append] at hb
  have hnil : IsBytes [] := by intro b hb; cases hb
  have hbs : IsBytes ([(2050 + rest.length) / 256, (2050 + rest.length) % 256] ++ nonce ++ m ++ 0x29 :: (be16 w1 ++ 0x29 :: (be16 w2 ++ rest))) :=
    isBytes_append.2 ⟨isBytes_append.2 ⟨isBytes_append.2 ⟨isBytes_cons.2 ⟨by omega, isBytes_cons.2 ⟨by omega, hnil⟩⟩, hb.1⟩, hb.2⟩,
      isBytes_cons.2 ⟨by decide, isBytes_append.2 ⟨word16_bytes _ h1, isBytes_cons.2 ⟨by decide, isBytes_append.2 ⟨word16_bytes _ h2, hr⟩⟩⟩⟩⟩
  have hbs2 : IsBytes ([0, 1] ++ nonce ++ m ++ [0x29]) :=
    isBytes_append.2 ⟨isBytes_append.2 ⟨isBytes_append.2 ⟨by unfold IsBytes; decide, hb.1⟩, hb.2⟩, by unfold IsBytes; decide⟩
  rw [C84_open _ _ _ _ hbs hnil hp hl] at ho
  rw [C84_open _ _ _ _ hbs2 (isBytes_append.2 ⟨word16_bytes _ h1, isBytes_cons.2 ⟨by decide, word16_bytes _ h2⟩⟩) hp hl, C84_open _ _ _ _ hbs2 hnil hp hl]
  obtain ⟨h, hk, n, e, v1, v2, r, hm, p1, p2, p3, p4, k1, k2, q1, q2, p5, p6⟩ := ho
  obtain ⟨u1, u2⟩ := parts_unique (a := [_, _]) (b := [_, _]) hn p1 (by simp only [List.length_cons]) p3
  rw [← u2, List.append_nil] at p4
  obtain ⟨x1, x2, _⟩ := halves_unique h1 q1 h2 q2 l1 k1 l2 k2 p4
  rw [← x1, ← x2] at p6
  rw [← u1] at p5
  constructor
  · exact ⟨h, hk, nonce, [], w1, w2, [], hm, hn, by decide, rfl, by simp, l1, l2, h1, h2, p5, p6⟩
  · rintro ⟨h', _, n', e', v1', v2', r', hm', p1', p2', p3', p4', k1', k2', _⟩
    obtain ⟨_, u2'⟩ := parts_unique (e := []) (a := [_, _]) (b := [_, _]) hn p1' (by simp only [List.length_cons]) p3'
    rw [← u2'] at p4'
    have := congrArg List.length p4'
    rw [List.length_append, List.length_append, be16_length, k1'] at this
    simp at this

/-! ## `zknox_pk_epervier` -/

/-- **C84** (`zknox_pk_epervier`): it takes the 512 values in the key for coefficients and stores their transform, so the result is a key for the polynomial `t` of these values. -/
theorem C84_pk (h t : List Nat) (hh : NTT.Poly512 h) (ht : NTT.IsTransform h t) : ∃ pk', pkEpervier (9 :: be16 t) = some pk' ∧ IsKey16 t pk' := by
  have hb : IsBytes (9 :: be16 t) := isBytes_cons.2 ⟨by decide, be16_bytes _ fun w hw => by have := ht.1.2 w hw; omega⟩
  have hl : (9 :: be16 t).length = 1025 := by rw [List.length_cons, be16_length, ht.1.1]
  obtain ⟨h1, h2⟩ := (keyEp_iff _ hb hl t).2 ⟨h, hh, ht, rfl⟩
  obtain ⟨u, hu⟩ : ∃ u, toNtt 9 t = u := ⟨_, rfl⟩
  have htr := (transform_iff t u ht.1).2 hu
  have hk : IsKey16 t (9 :: be16 u) := ⟨u, ht.1, htr, rfl⟩
  unfold pkEpervier
  rw [if_neg (by simp), h2]
  simp only
  rw [hu]
  exact ⟨_, (encodePk16_iff u htr.1.1 _).2 ⟨htr.1.2, rfl⟩, hk⟩

/-- **C84 is false of keys passed through `zknox_pk_epervier`**: a message that opens under a public key made by `zknox_crypto_sign_keypair` opens under the key after `zknox_pk_epervier` only if
the polynomial equals its own transform. -/
theorem C84_pk_twice_false (mem sm pk pk' m : Bytes) (h t : List Nat) (hb : IsBytes sm) (hmem : IsBytes mem) (hh : NTT.Poly512 h) (ht : NTT.IsTransform h t) (hpk : pk = 9 :: be16 t)
    (hp' : pkEpervier pk = some pk') (ho : ∃ fuel, signOpenEpervier fuel mem sm pk = .done m) : (∃ fuel, signOpenEpervier fuel mem sm pk' = .done m) ↔ t = h := by
  obtain ⟨q, q1, q2⟩ := C84_pk h t hh ht
  rw [hpk, q1] at hp'
  obtain rfl : q = pk' := Option.some.inj hp'
  have kb : ∀ k p, IsKey16 k p → IsBytes p ∧ p.length = 1025 := by
    rintro k p ⟨t, _, ht, rfl⟩
    exact ⟨isBytes_cons.2 ⟨by norm_num, be16_bytes _ fun w hw => by have := ht.1.2 w hw; omega⟩, by rw [List.length_cons, be16_length, ht.1.1]⟩
  have hk : IsKey16 h pk := ⟨t, hh, ht, hpk⟩
  obtain ⟨b1, b2⟩ := kb _ _ hk
  obtain ⟨b3, b4⟩ := kb _ _ q2
  rw [C84_open _ _ _ _ hb hmem b1 b2] at ho
  rw [C84_open _ _ _ _ hb hmem b3 b4]
  obtain ⟨h0, k0, s0⟩ := ho
  rw [key16_unique k0 hk] at s0
  constructor
  · rintro ⟨h1, k1, s1⟩
    rw [key16_unique k1 q2] at s1
    exact signedEp_unique ht.1 hh s1 s0
  · intro e
    exact ⟨t, q2, by rw [e]; exact s0⟩

/-! ## Signing -/

/-- The state of the generator after `i` calls of `sign_dyn`. -/
def afterCalls {σ : Type} (sign : σ → σ × List Int × List Int) (sc : σ) : Nat → σ
  | 0 => sc
  | i + 1 => (sign (afterCalls sign sc i)).1

/-- The first pair with an invertible second half. -/
def FirstUnit {σ : Type} (sign : σ → σ × List Int × List Int) (sc : σ) (s1 s2 : List Int) : Prop :=
  ∃ i, (sign (afterCalls sign sc i)).2 = (s2, s1) ∧ IsUnitPoly 512 (zq s2) ∧ ∀ j < i, ¬ IsUnitPoly 512 (zq (sign (afterCalls sign sc j)).2.1)

theorem afterCalls_succ {σ : Type} (sign : σ → σ × List Int × List Int) (sc : σ) (i : Nat) : afterCalls sign sc (i + 1) = afterCalls sign (sign sc).1 i := by
  induction i with
  | zero => rfl
  | succ i ih =>
    show (sign (afterCalls sign sc (i + 1))).1 = (sign (afterCalls sign (sign sc).1 i)).1
    rw [ih]

theorem firstUnit_unique {σ : Type} {sign : σ → σ × List Int × List Int} {sc : σ} {a b a' b' : List Int} (h : FirstUnit sign sc a b) (h' : FirstUnit sign sc a' b') : a = a' ∧ b = b' := by
  obtain ⟨i, h1, h2, h3⟩ := h
  obtain ⟨j, g1, g2, g3⟩ := h'
  have hij : i = j := by
    rcases Nat.lt_trichotomy i j with c | c | c
    · exact absurd h2 (by have := g3 i c; rw [h1] at this; exact this)
    · exact c
    · exact absurd g2 (by have := h3 j c; rw [g1] at this; exact this)
  rw [hij, g1] at h1
  exact ⟨(Prod.mk.inj h1).2.symm, (Prod.mk.inj h1).1.symm⟩

theorem signLoop_iff (sign : Shake.Ctx → Shake.Ctx × List Int × List Int) (hs : ∀ sc, (sign sc).2.1.length = 512 ∧ Small (sign sc).2.1) (sc : Shake.Ctx) (s1 s2 : List Int) :
    (∃ fuel, signLoop sign fuel sc = some (s1, s2)) ↔ FirstUnit sign sc s1 s2 := by
  have inv : ∀ sc, isInvertible 9 (sign sc).2.1 = true ↔ IsUnitPoly 512 (zq (sign sc).2.1) := by
    intro sc
    have := C85_is_invertible (k := 9) (by norm_num) (sign sc).2.1 (by rw [e512]; exact (hs sc).1) (hs sc).2
    rw [e512] at this
    exact this
  have step : ∀ fuel sc, signLoop sign (fuel + 1) sc = if isInvertible 9 (sign sc).2.1 then some ((sign sc).2.2, (sign sc).2.1) else signLoop sign fuel (sign sc).1 := by
    intro fuel sc
    rfl
  constructor
  · rintro ⟨fuel, h⟩
    induction fuel generalizing sc with
    | zero => cases h
    | succ fuel ih =>
      rw [step] at h
      by_cases hc : isInvertible 9 (sign sc).2.1 = true
      · rw [if_pos hc] at h
        have h := Prod.mk.inj (Option.some.inj h)
        exact ⟨0, Prod.ext h.2 h.1, by rw [← h.2]; exact (inv sc).1 hc, fun j hj => absurd hj (by omega)⟩
      · rw [if_neg hc] at h
        obtain ⟨i, h1, h2, h3⟩ := ih _ h
        refine ⟨i + 1, by rw [afterCalls_succ]; exact h1, h2, fun j hj => ?_⟩
        cases j with
        | zero => exact fun hu => hc ((inv sc).2 hu)
        | succ j => rw [afterCalls_succ]; exact h3 j (by omega)
  · rintro ⟨i, h1, h2, h3⟩
    induction i generalizing sc with
    | zero =>
      have h1 : (sign sc).2 = (s2, s1) := h1
      refine ⟨1, ?_⟩
      have hc := (inv sc).2 (by rw [h1]; exact h2)
      rw [step, if_pos hc, h1]
    | succ i ih =>
      obtain ⟨fuel, hf⟩ := ih (sign sc).1 (by rw [← afterCalls_succ]; exact h1) fun j hj => by
        have := h3 (j + 1) (by omega)
        rw [afterCalls_succ] at this
        exact this
      refine ⟨fuel + 1, ?_⟩
      have hc : ¬ isInvertible 9 (sign sc).2.1 = true := fun hc => h3 0 (by omega) ((inv sc).1 hc)
      rw [step, if_neg hc]
      exact hf

/-- What the lattice signer guarantees: a short pair for the key and the hash. -/
def ShortPair (h c : List Nat) (s1 s2 : List Int) : Prop :=
  s1.length = 512 ∧ s2.length = 512 ∧ normSq s1 + normSq s2 ≤ 34034726 ∧ List.zipWith (· + ·) (zq s1) (negMul 512 (NTT.toZ 12289 h) (zq s2)) = NTT.toZ 12289 c

theorem short_bound {h c : List Nat} {s1 s2 : List Int} (hs : ShortPair h c s1 s2) : (∀ x ∈ s1, -5833 ≤ x ∧ x ≤ 5833) ∧ ∀ x ∈ s2, -5833 ≤ x ∧ x ≤ 5833 := by
  have key : ∀ s t : List Int, normSq s + normSq t ≤ (34034726 : Int) → ∀ x ∈ s, -5833 ≤ x ∧ x ≤ 5833 := by
    intro s t hst x hx
    have h1 : x * x ≤ normSq s := by
      unfold normSq
      exact List.single_le_sum (fun y hy => by obtain ⟨z, _, rfl⟩ := List.mem_map.1 hy; exact mul_self_nonneg z) _ (List.mem_map.2 ⟨x, hx, rfl⟩)
    have h2 := normSq_nonneg t
    constructor <;> nlinarith
  exact ⟨key s1 s2 hs.2.2.1, key s2 s1 (by have := hs.2.2.1; omega)⟩

/-- The words of a vector. -/
def wordsOf (s : List Int) : List Nat := List.map (fun c : Int => (c % 12289).toNat) s

theorem wordsOf_word (s : List Int) : ∀ w ∈ wordsOf s, Word16 w := by
  intro w hw
  obtain ⟨x, _, rfl⟩ := List.mem_map.1 hw
  exact Or.inl (by omega)

theorem wordsOf_value (s : List Int) (hb : ∀ x ∈ s, -5833 ≤ x ∧ x ≤ 2046) : (wordsOf s).map value16 = s := by
  unfold wordsOf
  rw [List.map_map]
  conv_rhs => rw [← List.map_id s]
  refine List.map_congr_left fun x hxs => ?_
  have b1 := hb x hxs
  unfold value16
  simp only [Function.comp_apply, id]
  split
  · omega
  · split <;> omega

/-- **C84** (sign, then open): let every call of the lattice signer return a short pair for the key.  Signing returns a text exactly when some call gives an invertible `s2` (the first such pair
is used); the text consists of the length 2052, the nonce, the message, both halves and the hint, and it opens to the message exactly when no coefficient of the pair exceeds 2046. -/
theorem C84_sign_open (signDyn : List Int → List Int → List Int → List Int → List Nat → Shake.Ctx → Shake.Ctx × List Int × List Int) (mem nonce seed m sk pk : Bytes) (h : List Nat)
    (f g F G : List Int) (c : List Nat) (hn : nonce.length = 40) (hb : IsBytes nonce) (hm : IsBytes m) (hmem : IsBytes mem) (hk : IsKey16 h pk) (hd : decodeSk sk = some (f, g, F, G))
    (hc : Hashes false (nonce ++ m) c) (hs : ∀ sc, ShortPair h c (signDyn f g F G c sc).2.2 (signDyn f g F G c sc).2.1) :
    ((∃ sm fuel loops, signEpervier fuel loops signDyn nonce seed m sk = .done sm) ↔ ∃ s1 s2, FirstUnit (signDyn f g F G c) (Shake.flip (Shake.inject Shake.init seed)) s1 s2) ∧
    ∀ s1 s2, FirstUnit (signDyn f g F G c) (Shake.flip (Shake.inject Shake.init seed)) s1 s2 →
      ∃ sm hint, hint < 12289 ∧ sm = [8, 4] ++ nonce ++ m ++ 0x29 :: (be16 (wordsOf s1) ++ 0x29 :: (be16 (wordsOf s2) ++ be16 [hint])) ∧
        (hint : ZMod 12289) * ∏ i ∈ Finset.range 512, ev (rootC 9 i) (zq s2) = 1 ∧
        (∀ sm', (∃ fuel loops, signEpervier fuel loops signDyn nonce seed m sk = .done sm') ↔ sm' = sm) ∧
        ((∃ fuel, signOpenEpervier fuel mem sm pk = .done m) ↔ (∀ x ∈ s1, x ≤ 2046) ∧ ∀ x ∈ s2, x ≤ 2046) := by
  obtain ⟨sc0, hsc0⟩ : ∃ sc0, Shake.flip (Shake.inject Shake.init seed) = sc0 := ⟨_, rfl⟩
  rw [hsc0]
  obtain ⟨sg, hsg⟩ : ∃ sg, signDyn f g F G c = sg := ⟨_, rfl⟩
  rw [hsg] at hs ⊢
  have small : ∀ (s : List Int), (∀ x ∈ s, -5833 ≤ x ∧ x ≤ 5833) → Small s := fun s h x hx => by have := h x hx; constructor <;> omega
  have loop := signLoop_iff sg (fun sc => ⟨(hs sc).2.1, small _ (short_bound (hs sc)).2⟩) sc0
  have hhs : HashesSigned false nonce m c := (C82_agree false nonce m (fun h => by cases h) c).2 hc
  have pair : ∀ s1 s2, FirstUnit sg sc0 s1 s2 → ShortPair h c s1 s2 ∧ IsUnitPoly 512 (zq s2) := by
    rintro s1 s2 ⟨i, h1, h2, _⟩
    have := hs (afterCalls sg sc0 i)
    rw [h1] at this
    exact ⟨this, h2⟩
  have henc : ∀ s : List Int, s.length = 512 → (∀ x ∈ s, -5833 ≤ x ∧ x ≤ 5833) → compEncode16 1024 s 9 = some (be16 (wordsOf s)) := by
    intro s h1 h2
    rw [C78_comp_encode16 9 _ s (by rw [h1, e512])]
    exact ⟨fun x hx => by have := h2 x hx; omega, by norm_num, rfl⟩
  have body : ∀ fuel loops s1 s2, hashPieces false [nonce, m] fuel = some c → signLoop sg loops sc0 = some (s1, s2) → ShortPair h c s1 s2 →
      signEpervier fuel loops signDyn nonce seed m sk = .done ([8, 4] ++ nonce ++ m ++ 0x29 :: (be16 (wordsOf s1) ++ 0x29 :: (be16 (wordsOf s2) ++ be16 [hintEpervier 9 s2]))) := by
    intro fuel loops s1 s2 g1 g2 g3
    obtain ⟨b1, b2⟩ := short_bound g3
    unfold signEpervier
    rw [hd]
    simp only
    rw [g1]
    simp only
    rw [hsg, hsc0, g2]
    simp only
    rw [henc s1 g3.1 b1]
    simp only
    rw [henc s2 g3.2.1 b2]
    simp only
    have hint := (C85_hint (k := 9) (by norm_num) s2 (by rw [g3.2.1, e512]) (small s2 b2)).1
    have le : ∀ s : List Int, s.length = 512 → (be16 (wordsOf s)).length = 1024 := by
      intro s hl
      rw [be16_length]
      unfold wordsOf
      rw [List.length_map, hl]
    rw [le s1 g3.1, le s2 g3.2.1]
    have e8 : (hintEpervier 9 s2 >>> 8) % 256 = hintEpervier 9 s2 / 256 := by rw [Nat.shiftRight_eq_div_pow]; omega
    rw [e8]
    have ebe : ∀ x, be16 [x] = [x / 256, x % 256] := fun x => rfl
    rw [ebe]
    have e84 : [(1024 + 1 + 1024 + 1 + 2) >>> 8 % 256, (1024 + 1 + 1024 + 1 + 2) % 256] = [8, 4] := by decide
    rw [e84]
    simp only [List.append_assoc, List.cons_append, List.nil_append]
  have back : ∀ sm' fuel loops, signEpervier fuel loops signDyn nonce seed m sk = .done sm' → ∃ s1 s2, hashPieces false [nonce, m] fuel = some c ∧ signLoop sg loops sc0 = some (s1, s2) := by
    intro sm' fuel loops h1
    unfold signEpervier at h1
    rw [hd] at h1
    simp only at h1
    cases hh : hashPieces false [nonce, m] fuel with
    | none => rw [hh] at h1; cases h1
    | some c' =>
      have : c' = c := by
        have h2 := (hash_two false nonce m hn hb hm c').1 ⟨fuel, hh⟩
        rw [C82_agree false nonce m (fun h => by cases h)] at h2
        exact hashes_unique h2 hc
      rw [hh, this] at h1
      simp only at h1
      rw [hsg, hsc0] at h1
      cases hl : signLoop sg loops sc0 with
      | none => rw [hl] at h1; cases h1
      | some q => exact ⟨q.1, q.2, by rw [this], rfl⟩
  obtain ⟨fuel, hf⟩ := (hash_two false nonce m hn hb hm c).2 hhs
  constructor
  · constructor
    · rintro ⟨sm', fu, lo, h1⟩
      obtain ⟨s1, s2, _, h2⟩ := back sm' fu lo h1
      exact ⟨s1, s2, (loop s1 s2).1 ⟨lo, h2⟩⟩
    · rintro ⟨s1, s2, h1⟩
      obtain ⟨lo, h2⟩ := (loop s1 s2).2 h1
      exact ⟨_, fuel, lo, body fuel lo s1 s2 hf h2 (pair s1 s2 h1).1⟩
  · intro s1 s2 h1
    obtain ⟨sp, un⟩ := pair s1 s2 h1
    obtain ⟨b1, b2⟩ := short_bound sp
    obtain ⟨hi1, hi2, _⟩ := C85_hint (k := 9) (by norm_num) s2 (by rw [sp.2.1, e512]) (small s2 b2)
    rw [e512] at hi2
    obtain ⟨lo, h2⟩ := (loop s1 s2).2 h1
    refine ⟨_, hintEpervier 9 s2, hi1, rfl, hi2 un, fun sm' => ⟨?_, ?_⟩, ?_⟩
    · rintro ⟨fu, lo', h3⟩
      obtain ⟨t1, t2, h4, h5⟩ := back sm' fu lo' h3
      obtain ⟨rfl, rfl⟩ := firstUnit_unique ((loop t1 t2).1 ⟨lo', h5⟩) h1
      rw [body fu lo' _ _ h4 h5 sp] at h3
      injection h3 with h3
      exact h3.symm
    · rintro rfl
      exact ⟨fuel, lo, body fuel lo s1 s2 hf h2 sp⟩
    · have hpb : IsBytes pk ∧ pk.length = 1025 := by
        obtain ⟨t, _, ht, rfl⟩ := hk
        exact ⟨isBytes_cons.2 ⟨by norm_num, be16_bytes _ fun w hw => by have := ht.1.2 w hw; omega⟩, by rw [List.length_cons, be16_length, ht.1.1]⟩
      have hsm : IsBytes ([8, 4] ++ nonce ++ m ++ 0x29 :: (be16 (wordsOf s1) ++ 0x29 :: (be16 (wordsOf s2) ++ be16 [hintEpervier 9 s2]))) :=
        isBytes_append.2 ⟨isBytes_append.2 ⟨isBytes_append.2 ⟨by unfold IsBytes; decide, hb⟩, hm⟩, isBytes_cons.2 ⟨by decide, isBytes_append.2 ⟨word16_bytes _ (wordsOf_word s1),
          isBytes_cons.2 ⟨by decide, isBytes_append.2 ⟨word16_bytes _ (wordsOf_word s2), be16_bytes _ fun w hw => by rw [List.mem_singleton] at hw; omega⟩⟩⟩⟩⟩
      have wl : ∀ s : List Int, s.length = 512 → (wordsOf s).length = 512 := fun s hl => by unfold wordsOf; rw [List.length_map, hl]
      have hlen : (be16 (wordsOf s1) ++ 0x29 :: (be16 (wordsOf s2) ++ be16 [hintEpervier 9 s2])).length = 2051 := by
        rw [List.length_append, List.length_cons, List.length_append, be16_length, be16_length, be16_length, wl s1 sp.1, wl s2 sp.2.1]
        rfl
      rw [C84_open _ _ _ _ hsm hmem hpb.1 hpb.2]
      constructor
      · rintro ⟨k, hk2, n, e, w1, w2, r, c2, p1, p2, p3, p4, l1, l2, q1, q2, p5, p6⟩
        obtain ⟨u1, u2⟩ := parts_unique (a := [_, _]) (b := [_, _]) hn p1 (by simp only [List.length_cons]) p3
        rw [← u2] at p4
        have p4' : be16 (wordsOf s1) ++ 0x29 :: (be16 (wordsOf s2) ++ (be16 [hintEpervier 9 s2] ++ mem)) = be16 w1 ++ 0x29 :: (be16 w2 ++ r) := by
          rw [← p4]
          simp only [List.append_assoc, List.cons_append]
        obtain ⟨v1, v2, _⟩ := halves_unique (wordsOf_word s1) q1 (wordsOf_word s2) q2 (wl s1 sp.1) l1 (wl s2 sp.2.1) l2 p4'
        rw [← v1, ← v2] at p6
        have big : ∀ s : List Int, (∀ x ∈ s, -5833 ≤ x ∧ x ≤ 5833) → (∀ y ∈ (wordsOf s).map value16, -5833 ≤ y ∧ y ≤ 5833) → ∀ x ∈ s, x ≤ 2046 := by
          intro s hs1 hs2 x hx
          by_contra hcon
          have c1 := hs1 x hx
          have c2 := hs2 (value16 (x % 12289).toNat) (List.mem_map.2 ⟨_, List.mem_map.2 ⟨x, hx, rfl⟩, rfl⟩)
          unfold value16 at c2
          rw [if_neg (by omega), if_pos (by omega)] at c2
          omega
        obtain ⟨y1, y2⟩ := short_bound (h := k) (c := c2) ⟨by rw [List.length_map, wl s1 sp.1], by rw [List.length_map, wl s2 sp.2.1], p6.2.1, p6.2.2⟩
        exact ⟨big s1 b1 y1, big s2 b2 y2⟩
      · rintro ⟨x1, x2⟩
        refine ⟨h, hk, nonce, _, wordsOf s1, wordsOf s2, be16 [hintEpervier 9 s2] ++ mem, c, hn, by rw [hlen]; norm_num, by rw [hlen], by simp only [List.append_assoc, List.cons_append],
          wl s1 sp.1, wl s2 sp.2.1, wordsOf_word s1, wordsOf_word s2, hc, ?_⟩
        rw [wordsOf_value s1 fun x hx => ⟨(b1 x hx).1, x1 x hx⟩, wordsOf_value s2 fun x hx => ⟨(b2 x hx).1, x2 x hx⟩]
        exact ⟨un, sp.2.2.1, sp.2.2.2⟩

end Verif.CRef
