import Verif.CRef.ApiSign
import Verif.CRef.ApiConst

/-! # Property C87: key pairs, signing and opening of the C code fit together -/

namespace Verif.CRef
open Verif Verif.Hash Verif.Ring Verif.Falcon Verif.Codec Verif.Codec.Spec Verif.CRef.CodecSpec

/-! ## The private key -/

theorem trim_some (bits maxOut : Nat) (hb : bits = 6 ∨ bits = 8) (x : List Int) (hl : x.length = 512) (hm : packedLen 512 bits ≤ maxOut) (y : Bytes) :
    trimEncodeT 256 maxOut x 9 bits = some y ↔ (∀ c ∈ x, InRange bits c) ∧ IsPacking bits (x.map (twos bits)) y := by
  rw [(C79_trim 256 9 bits (Or.inl ⟨rfl, by omega⟩) (by omega) [] (by intro b hb; cases hb) x (by rw [hl, e512]) maxOut (by rw [e512]; exact hm) y).2, e512, ← hl]
  exact trimEncode_ok_iff x bits (by omega) y

theorem trim_back (bits : Nat) (hb : bits = 6 ∨ bits = 8) (x : List Int) (hl : x.length = 512) (y rest : Bytes) (hr : IsBytes rest) (hx : ∀ c ∈ x, InRange bits c)
    (hy : IsPacking bits (x.map (twos bits)) y) : trimDecodeT 256 9 bits (y ++ rest) = .ok x := by
  have hyl : y.length = packedLen 512 bits := by rw [hy.2.1, List.length_map, hl]
  have hbb : IsBytes (y ++ rest) := isBytes_append.2 ⟨hy.1, hr⟩
  rw [(C79_trim 256 9 bits (Or.inl ⟨rfl, by omega⟩) (by omega) (y ++ rest) hbb x (by rw [hl, e512]) (packedLen (2 ^ 9) bits) (Nat.le_refl _) y).1, e512,
    trimDecode_ok_iff _ hbb 512 bits (by omega)]
  refine ⟨by rw [List.length_append]; omega, hl, hx, ?_⟩
  rw [List.take_append_of_le_length (by omega), List.take_of_length_le (by omega)]
  exact hy

theorem p6 : packedLen 512 6 = 384 := by decide
theorem p8 : packedLen 512 8 = 512 := by decide
theorem o6 : outLen 512 6 = 384 := by decide
theorem o8 : outLen 512 8 = 512 := by decide

/-- What the private key holds. -/
def IsSecret (f g F : List Int) (sk : Bytes) : Prop :=
  ∃ a b c, IsPacking 6 (f.map (twos 6)) a ∧ IsPacking 6 (g.map (twos 6)) b ∧ IsPacking 8 (F.map (twos 8)) c ∧ sk = 0x59 :: (a ++ b ++ c)

theorem encodeSk_iff (f g F : List Int) (hf : f.length = 512) (hg : g.length = 512) (hF : F.length = 512) (sk : Bytes) :
    encodeSk f g F = some sk ↔ (∀ x ∈ f, InRange 6 x) ∧ (∀ x ∈ g, InRange 6 x) ∧ (∀ x ∈ F, InRange 8 x) ∧ IsSecret f g F sk := by
  have len : ∀ {bits : Nat} {x : List Int} {y : Bytes}, x.length = 512 → IsPacking bits (x.map (twos bits)) y → y.length = packedLen 512 bits :=
    fun hx hy => by rw [hy.2.1, List.length_map, hx]
  unfold encodeSk IsSecret
  simp only [List.length_append, List.length_cons, List.length_nil]
  constructor
  · intro h
    cases ha : trimEncodeT 256 (1281 - (0 + 1)) f 9 6 with
    | none => rw [ha] at h; cases h
    | some a =>
      rw [ha] at h
      obtain ⟨a1, a2⟩ := (trim_some 6 _ (Or.inl rfl) f hf (by rw [p6]; omega) a).1 ha
      have al := len hf a2
      rw [p6] at al
      simp only [al] at h
      cases hb : trimEncodeT 256 (1281 - (0 + 1 + 384)) g 9 6 with
      | none => rw [hb] at h; cases h
      | some b =>
        rw [hb] at h
        obtain ⟨b1, b2⟩ := (trim_some 6 _ (Or.inl rfl) g hg (by rw [p6]; omega) b).1 hb
        have bl := len hg b2
        rw [p6] at bl
        simp only [bl] at h
        cases hc : trimEncodeT 256 (1281 - (0 + 1 + 384 + 384)) F 9 8 with
        | none => rw [hc] at h; cases h
        | some c =>
          rw [hc] at h
          obtain ⟨c1, c2⟩ := (trim_some 8 _ (Or.inr rfl) F hF (by rw [p8]) c).1 hc
          have cl := len hF c2
          rw [p8] at cl
          simp only [cl] at h
          rw [if_neg (by omega)] at h
          refine ⟨a1, b1, c1, a, b, c, a2, b2, c2, ?_⟩
          have := Option.some.inj h
          rw [← this]
          simp
  · rintro ⟨a1, b1, c1, a, b, c, a2, b2, c2, rfl⟩
    have al := len hf a2
    rw [p6] at al
    have bl := len hg b2
    rw [p6] at bl
    have cl := len hF c2
    rw [p8] at cl
    rw [(trim_some 6 _ (Or.inl rfl) f hf (by rw [p6]; omega) a).2 ⟨a1, a2⟩]
    simp only [al]
    rw [(trim_some 6 _ (Or.inl rfl) g hg (by rw [p6]; omega) b).2 ⟨b1, b2⟩]
    simp only [bl]
    rw [(trim_some 8 _ (Or.inr rfl) F hF (by rw [p8]) c).2 ⟨c1, c2⟩]
    simp only [cl]
    rw [if_neg (by omega)]
    simp

theorem isSecret_bytes {f g F : List Int} {sk : Bytes} (hf : f.length = 512) (hg : g.length = 512) (hF : F.length = 512) (h : IsSecret f g F sk) : IsBytes sk ∧ sk.length = 1281 := by
  obtain ⟨a, b, c, a2, b2, c2, rfl⟩ := h
  refine ⟨isBytes_cons.2 ⟨by norm_num, isBytes_append.2 ⟨isBytes_append.2 ⟨a2.1, b2.1⟩, c2.1⟩⟩, ?_⟩
  rw [List.length_cons, List.length_append, List.length_append, a2.2.1, b2.2.1, c2.2.1, List.length_map, List.length_map, List.length_map, hf, hg, hF, p6, p8]

theorem decodeSk_secret (f g F : List Int) (hf : f.length = 512) (hg : g.length = 512) (hF : F.length = 512) (hf2 : ∀ x ∈ f, InRange 6 x) (hg2 : ∀ x ∈ g, InRange 6 x)
    (hF2 : ∀ x ∈ F, InRange 8 x) (sk : Bytes) (h : IsSecret f g F sk) : decodeSk sk = (completePrivate 9 f g F).map fun G => (f, g, F, G) := by
  obtain ⟨hbs, hsl⟩ := isSecret_bytes hf hg hF h
  obtain ⟨a, b, c, a2, b2, c2, rfl⟩ := h
  have al : a.length = 384 := by rw [a2.2.1, List.length_map, hf, p6]
  have bl : b.length = 384 := by rw [b2.2.1, List.length_map, hg, p6]
  have cl : c.length = 512 := by rw [c2.2.1, List.length_map, hF, p8]
  have e1 : ((0x59 :: (a ++ b ++ c)).drop 1).take (1281 - 1) = a ++ (b ++ c) := by
    rw [List.drop_succ_cons, List.drop_zero, List.append_assoc, List.take_of_length_le (by simp [al, bl, cl])]
  have e2 : ((0x59 :: (a ++ b ++ c)).drop (1 + 384)).take (1281 - (1 + 384)) = b ++ c := by
    rw [Nat.add_comm 1 384, List.drop_succ_cons, List.append_assoc, List.drop_append_of_le_length (by omega), List.drop_of_length_le (by omega), List.nil_append,
      List.take_of_length_le (by simp [bl, cl])]
  have e3 : ((0x59 :: (a ++ b ++ c)).drop (1 + 384 + 384)).take (1281 - (1 + 384 + 384)) = c ++ [] := by
    rw [show 1 + 384 + 384 = 768 + 1 from rfl, List.drop_succ_cons, List.drop_append_of_le_length (by simp [al, bl]), List.drop_of_length_le (by simp [al, bl]), List.nil_append,
      List.take_of_length_le (by simp [cl]), List.append_nil]
  have d1 := trim_back 6 (Or.inl rfl) f hf a (b ++ c) (isBytes_append.2 ⟨b2.1, c2.1⟩) hf2 a2
  have d2 := trim_back 6 (Or.inl rfl) g hg b c c2.1 hg2 b2
  have d3 := trim_back 8 (Or.inr rfl) F hF c [] (by intro b hb; cases hb) hF2 c2
  unfold decodeSk
  rw [if_neg (by simp)]
  simp only [o6, o8, e1, e2, e3, d1, d2, d3]
  rw [if_neg (by omega)]
  cases completePrivate 9 f g F <;> rfl

theorem packing_exists (bits : Nat) (hb : bits = 6 ∨ bits = 8) (x : List Int) (hx : ∀ c ∈ x, InRange bits c) : ∃ y, IsPacking bits (x.map (twos bits)) y := by
  obtain ⟨y, h1, _⟩ := trimDecode_encode x bits (by omega) hx [] (by intro b hb; cases hb)
  exact ⟨y, ((trimEncode_ok_iff x bits (by omega) y).1 h1).2⟩

theorem secret_exists (f g F : List Int) (hf : ∀ x ∈ f, InRange 6 x) (hg : ∀ x ∈ g, InRange 6 x) (hF : ∀ x ∈ F, InRange 8 x) : ∃ sk, IsSecret f g F sk := by
  obtain ⟨a, ha⟩ := packing_exists 6 (Or.inl rfl) f hf
  obtain ⟨b, hb⟩ := packing_exists 6 (Or.inl rfl) g hg
  obtain ⟨c, hc⟩ := packing_exists 8 (Or.inr rfl) F hF
  exact ⟨_, a, b, c, ha, hb, hc, rfl⟩

theorem inRange6 (x : Int) : InRange 6 x ↔ -31 ≤ x ∧ x ≤ 31 := by unfold InRange; norm_num
theorem inRange8 (x : Int) : InRange 8 x ↔ -127 ≤ x ∧ x ≤ 127 := by unfold InRange; norm_num

/-- What decoding the private key gives: `f`, `g`, `F` and `G = g·F/f` modulo `q`. -/
def DecodesTo (f g F : List Int) (sk : Bytes) : Prop :=
  ∀ f' g' F' G, decodeSk sk = some (f', g', F', G) ↔ f' = f ∧ g' = g ∧ F' = F ∧ IsUnitPoly 512 (zq f) ∧ G.length = 512 ∧ (∀ x ∈ G, -127 ≤ x ∧ x ≤ 127) ∧
    negMul 512 (zq G) (zq f) = negMul 512 (zq g) (zq F)

theorem decodesTo (f g F : List Int) (hf : f.length = 512) (hg : g.length = 512) (hF : F.length = 512) (hf2 : ∀ x ∈ f, InRange 6 x) (hg2 : ∀ x ∈ g, InRange 6 x)
    (hF2 : ∀ x ∈ F, InRange 8 x) (sk : Bytes) (h : IsSecret f g F sk) : DecodesTo f g F sk := by
  intro f' g' F' G
  rw [decodeSk_secret f g F hf hg hF hf2 hg2 hF2 sk h, Option.map_eq_some_iff]
  have r6 : ∀ x : Int, InRange 6 x → -128 ≤ x ∧ x ≤ 127 := fun x hx => by rw [inRange6] at hx; omega
  have r8 : ∀ x : Int, InRange 8 x → -128 ≤ x ∧ x ≤ 127 := fun x hx => by rw [inRange8] at hx; omega
  have key := fun G => C85_complete_private (k := 9) (by norm_num) f g F G (by rw [hf, e512]) (by rw [hg, e512]) (by rw [hF, e512]) (fun x hx => r6 x (hf2 x hx))
    (fun x hx => r6 x (hg2 x hx)) (fun x hx => r8 x (hF2 x hx))
  simp only [e512] at key
  constructor
  · rintro ⟨G', h1, h2⟩
    simp only [Prod.mk.injEq] at h2
    obtain ⟨rfl, rfl, rfl, rfl⟩ := h2
    exact ⟨rfl, rfl, rfl, (key G').1 h1⟩
  · rintro ⟨rfl, rfl, rfl, h1⟩
    exact ⟨G, (key G).2 h1, rfl⟩

theorem trim_dec (bits : Nat) (hb : bits = 6 ∨ bits = 8) (data : Bytes) (hd : IsBytes data) (x : List Int) (h : trimDecodeT 256 9 bits data = .ok x) :
    packedLen 512 bits ≤ data.length ∧ x.length = 512 ∧ (∀ c ∈ x, InRange bits c) ∧ IsPacking bits (x.map (twos bits)) (data.take (packedLen 512 bits)) := by
  obtain ⟨z, hz⟩ : ∃ z : List Int, z.length = 2 ^ 9 := ⟨List.replicate (2 ^ 9) 0, List.length_replicate⟩
  rw [(C79_trim 256 9 bits (Or.inl ⟨rfl, by omega⟩) (by omega) data hd z hz (packedLen (2 ^ 9) bits) (Nat.le_refl _) []).1, e512, trimDecode_ok_iff _ hd 512 bits (by omega)] at h
  exact h

/-- **C87** (private keys accepted): of the byte strings of the length of a private key, signing accepts exactly the header byte 0x59 followed by the canonical encodings of `f`, `g` and `F` with `f`
invertible modulo `q` and all coefficients of `g*F/f` in [-127, 127]; it works with these polynomials. -/
theorem C87_private_key (sk : Bytes) (hb : IsBytes sk) (hl : sk.length = 1281) (f g F G : List Int) :
    decodeSk sk = some (f, g, F, G) ↔ (f.length = 512 ∧ g.length = 512 ∧ F.length = 512 ∧ (∀ x ∈ f, -31 ≤ x ∧ x ≤ 31) ∧ (∀ x ∈ g, -31 ≤ x ∧ x ≤ 31) ∧ (∀ x ∈ F, -127 ≤ x ∧ x ≤ 127) ∧
      IsSecret f g F sk) ∧ IsUnitPoly 512 (zq f) ∧ G.length = 512 ∧ (∀ x ∈ G, -127 ≤ x ∧ x ≤ 127) ∧ negMul 512 (zq G) (zq f) = negMul 512 (zq g) (zq F) := by
  constructor
  · intro h
    have key : f.length = 512 ∧ g.length = 512 ∧ F.length = 512 ∧ (∀ x ∈ f, InRange 6 x) ∧ (∀ x ∈ g, InRange 6 x) ∧ (∀ x ∈ F, InRange 8 x) ∧ IsSecret f g F sk := by
      have bd : ∀ u v, IsBytes ((sk.drop u).take v) := fun u v b hm => hb b (List.mem_of_mem_drop (List.mem_of_mem_take hm))
      unfold decodeSk at h
      split at h
      · cases h
      next h0 =>
      simp only [o6, o8] at h
      split at h
      · cases h
      next f' hf =>
      split at h
      · cases h
      next g' hg =>
      split at h
      · cases h
      next F' hF =>
      split at h
      · cases h
      split at h
      · cases h
      next G' hG =>
      simp only [Option.some.injEq, Prod.mk.injEq] at h
      obtain ⟨rfl, rfl, rfl, rfl⟩ := h
      obtain ⟨_, f1, f2, f3⟩ := trim_dec 6 (Or.inl rfl) _ (bd _ _) _ hf
      obtain ⟨_, g1, g2, g3⟩ := trim_dec 6 (Or.inl rfl) _ (bd _ _) _ hg
      obtain ⟨_, F1, F2, F3⟩ := trim_dec 8 (Or.inr rfl) _ (bd _ _) _ hF
      rw [p6, List.take_take] at f3 g3
      rw [p8, List.take_take] at F3
      refine ⟨f1, g1, F1, f2, g2, F2, _, _, _, f3, g3, F3, ?_⟩
      have h0' : sk.getD 0 0 = 0x59 := by simpa using h0
      cases sk with
      | nil => simp at hl
      | cons z t =>
        have : z = 0x59 := by simpa using h0'
        rw [List.length_cons] at hl
        subst this
        have d0 : (0x59 :: t).drop 1 = t := rfl
        have d1 : (0x59 :: t).drop (1 + 384) = t.drop 384 := by rw [Nat.add_comm, List.drop_succ_cons]
        have d2 : (0x59 :: t).drop (1 + 384 + 384) = t.drop 768 := by rw [Nat.add_assoc, Nat.add_comm, List.drop_succ_cons]
        have m1 : min 384 (1281 - 1) = 384 := by decide
        have m2 : min 384 (1281 - (1 + 384)) = 384 := by decide
        have m3 : min 512 (1281 - (1 + 384 + 384)) = 512 := by decide
        have e1 : t.take 384 ++ (t.drop 384).take 384 = t.take 768 := (List.take_add).symm
        rw [d0, d1, d2, m1, m2, m3, e1, List.take_of_length_le (l := t.drop 768) (by rw [List.length_drop]; omega), List.take_append_drop]
    obtain ⟨a1, a2, a3, a4, a5, a6, a7⟩ := key
    have := (decodesTo f g F a1 a2 a3 a4 a5 a6 sk a7 f g F G).1 h
    exact ⟨⟨a1, a2, a3, fun x hx => (inRange6 x).1 (a4 x hx), fun x hx => (inRange6 x).1 (a5 x hx), fun x hx => (inRange8 x).1 (a6 x hx), a7⟩, this.2.2.2⟩
  · rintro ⟨⟨a1, a2, a3, a4, a5, a6, a7⟩, h⟩
    exact (decodesTo f g F a1 a2 a3 (fun x hx => (inRange6 x).2 (a4 x hx)) (fun x hx => (inRange6 x).2 (a5 x hx)) (fun x hx => (inRange8 x).2 (a6 x hx)) sk a7 f g F G).2 ⟨rfl, rfl, rfl, h⟩

/-! ## Key pairs -/

theorem encodePk16_iff (h : List Nat) (hl : h.length = 512) (pk : Bytes) : encodePk 16 1025 h = some pk ↔ (∀ c ∈ h, c < 12289) ∧ pk = 9 :: be16 h := by
  unfold encodePk
  have e := fun y => C79_modq_encode 16 (Or.inr rfl) 9 (1025 - 1) h (by rw [hl, e512]) y
  have hp : packedLen (2 ^ 9) 16 = 1024 := by decide
  simp only [hp] at e
  constructor
  · intro H
    cases hc : modqEncodeW 16 (1025 - 1) h 9 with
    | none => rw [hc] at H; cases H
    | some b =>
      rw [hc] at H
      obtain ⟨h1, _, h3⟩ := (e b).1 hc
      rw [packing16_iff _ (fun w hw => by have := h1 w hw; omega)] at h3
      simp only at H
      rw [if_neg (by rw [h3, be16_length, hl]; norm_num)] at H
      exact ⟨h1, by rw [← Option.some.inj H, h3]⟩
  · rintro ⟨h1, rfl⟩
    rw [(e (be16 h)).2 ⟨h1, by norm_num, (packing16_iff _ (fun w hw => by have := h1 w hw; omega) _).2 rfl⟩]
    simp only
    rw [if_neg (by rw [be16_length, hl]; norm_num)]

theorem keypair16_iff (f g F : List Int) (h : List Nat) (pk sk : Bytes) : keypair16 f g F h = some (pk, sk) ↔ encodeSk f g F = some sk ∧ encodePk 16 1025 (toNtt 9 h) = some pk := by
  unfold keypair16
  simp only
  generalize toNtt 9 h = t
  cases encodeSk f g F with
  | none => simp
  | some s =>
    cases encodePk 16 1025 t with
    | none => simp
    | some p => simp [and_comm]

theorem keypair_iff (f g F : List Int) (h : List Nat) (pk sk : Bytes) : keypair f g F h = some (pk, sk) ↔ encodeSk f g F = some sk ∧ encodePk 14 897 h = some pk := by
  unfold keypair
  cases encodeSk f g F with
  | none => simp
  | some s =>
    cases encodePk 14 897 h with
    | none => simp
    | some p => simp [and_comm]

theorem encodePk14_iff (h : List Nat) (hl : h.length = 512) (pk : Bytes) : encodePk 14 897 h = some pk ↔ IsKey14 h pk := by
  unfold encodePk IsKey14
  have e := fun y => C79_modq_encode 14 (Or.inl rfl) 9 (897 - 1) h (by rw [hl, e512]) y
  have hp : packedLen (2 ^ 9) 14 = 896 := by decide
  have hp2 : packedLen 512 14 = 896 := by decide
  simp only [hp] at e
  constructor
  · intro H
    cases hc : modqEncodeW 14 (897 - 1) h 9 with
    | none => rw [hc] at H; cases H
    | some b =>
      rw [hc] at H
      obtain ⟨h1, _, h3⟩ := (e b).1 hc
      simp only at H
      rw [if_neg (by rw [h3.2.1, hl, hp2]; norm_num)] at H
      exact ⟨b, ⟨hl, h1⟩, h3, by rw [← Option.some.inj H]⟩
  · rintro ⟨y, h1, h3, rfl⟩
    rw [(e y).2 ⟨h1.2, by norm_num, h3⟩]
    simp only
    rw [if_neg (by rw [h3.2.1, hl, hp2]; norm_num)]

/-- **C87** (key pairs, 16-bit format): for 512 coefficients `f`, `g`, `F` and a canonical `h` the pair is produced exactly when `f` and `g` lie in [−31, 31] and `F` in [−127, 127]; the public key
then is the 16-bit key of `h`, and decoding the private key gives back `f`, `g`, `F` and the `G` with `f·G = g·F` modulo `q` and coefficients in [−127, 127], if `f` is invertible and it exists. -/
theorem C87_keypair16 (f g F : List Int) (h : List Nat) (hf : f.length = 512) (hg : g.length = 512) (hF : F.length = 512) (hh : Poly 512 h) :
    ((∃ pk sk, keypair16 f g F h = some (pk, sk)) ↔ (∀ x ∈ f, -31 ≤ x ∧ x ≤ 31) ∧ (∀ x ∈ g, -31 ≤ x ∧ x ≤ 31) ∧ (∀ x ∈ F, -127 ≤ x ∧ x ≤ 127)) ∧
    ∀ pk sk, keypair16 f g F h = some (pk, sk) → IsKey16 h pk ∧ IsBytes pk ∧ pk.length = 1025 ∧ IsBytes sk ∧ sk.length = 1281 ∧ DecodesTo f g F sk := by
  obtain ⟨t, ht⟩ : ∃ t, toNtt 9 h = t := ⟨_, rfl⟩
  have htr := (transform_iff h t hh).2 ht
  have hpk := encodePk16_iff t htr.1.1
  have hkk := keypair16_iff f g F h
  rw [ht] at hkk
  simp only [← inRange6, ← inRange8]
  constructor
  · constructor
    · rintro ⟨pk, sk, H⟩
      obtain ⟨r1, r2, r3, _⟩ := (encodeSk_iff f g F hf hg hF sk).1 ((keypair16_iff f g F h pk sk).1 H).1
      exact ⟨r1, r2, r3⟩
    · rintro ⟨r1, r2, r3⟩
      obtain ⟨sk, hsk⟩ := secret_exists f g F r1 r2 r3
      exact ⟨9 :: be16 t, sk, (hkk _ _).2 ⟨(encodeSk_iff f g F hf hg hF sk).2 ⟨r1, r2, r3, hsk⟩, (hpk _).2 ⟨htr.1.2, rfl⟩⟩⟩
  · intro pk sk H
    obtain ⟨H1, H2⟩ := (keypair16_iff f g F h pk sk).1 H
    obtain ⟨r1, r2, r3, r4⟩ := (encodeSk_iff f g F hf hg hF sk).1 H1
    obtain ⟨b1, b2⟩ := isSecret_bytes hf hg hF r4
    rw [ht] at H2
    obtain ⟨q1, q2⟩ := (hpk pk).1 H2
    refine ⟨⟨t, hh, htr, q2⟩, ?_, ?_, b1, b2, decodesTo f g F hf hg hF r1 r2 r3 sk r4⟩
    · rw [q2]
      exact isBytes_cons.2 ⟨by norm_num, be16_bytes _ fun w hw => by have := q1 w hw; omega⟩
    · rw [q2, List.length_cons, be16_length, htr.1.1]

/-- **C87** (key pairs, NIST format). -/
theorem C87_keypair14 (f g F : List Int) (h : List Nat) (hf : f.length = 512) (hg : g.length = 512) (hF : F.length = 512) (hh : Poly 512 h) :
    ((∃ pk sk, keypair f g F h = some (pk, sk)) ↔ (∀ x ∈ f, -31 ≤ x ∧ x ≤ 31) ∧ (∀ x ∈ g, -31 ≤ x ∧ x ≤ 31) ∧ (∀ x ∈ F, -127 ≤ x ∧ x ≤ 127)) ∧
    ∀ pk sk, keypair f g F h = some (pk, sk) → IsKey14 h pk ∧ IsBytes pk ∧ pk.length = 897 ∧ IsBytes sk ∧ sk.length = 1281 ∧ DecodesTo f g F sk := by
  have hpk := encodePk14_iff h hh.1
  simp only [← inRange6, ← inRange8]
  constructor
  · constructor
    · rintro ⟨pk, sk, H⟩
      obtain ⟨r1, r2, r3, _⟩ := (encodeSk_iff f g F hf hg hF sk).1 ((keypair_iff f g F h pk sk).1 H).1
      exact ⟨r1, r2, r3⟩
    · rintro ⟨r1, r2, r3⟩
      obtain ⟨sk, hsk⟩ := secret_exists f g F r1 r2 r3
      obtain ⟨y, hy, _⟩ := modqDecode_encode h hh.2 [] (by intro b hb; cases hb)
      have hy := (modqEncode_ok_iff (h.map Int.ofNat) y).1 (by rw [List.length_map]; exact hy)
      rw [List.map_map, show Int.toNat ∘ Int.ofNat = id from rfl, List.map_id] at hy
      exact ⟨9 :: y, sk, (keypair_iff f g F h _ _).2 ⟨(encodeSk_iff f g F hf hg hF sk).2 ⟨r1, r2, r3, hsk⟩, (hpk _).2 ⟨y, hh, hy.2, rfl⟩⟩⟩
  · intro pk sk H
    obtain ⟨H1, H2⟩ := (keypair_iff f g F h pk sk).1 H
    obtain ⟨r1, r2, r3, r4⟩ := (encodeSk_iff f g F hf hg hF sk).1 H1
    obtain ⟨b1, b2⟩ := isSecret_bytes hf hg hF r4
    have hk := (hpk pk).1 H2
    refine ⟨hk, ?_, ?_, b1, b2, decodesTo f g F hf hg hF r1 r2 r3 sk r4⟩
    · obtain ⟨y, _, hy, rfl⟩ := hk
      exact isBytes_cons.2 ⟨by norm_num, hy.1⟩
    · obtain ⟨y, _, hy, rfl⟩ := hk
      have hp2 : packedLen 512 14 = 896 := by decide
      rw [List.length_cons, hy.2.1, hh.1, hp2]

/-! ## Signing -/

/-- What a successful call of the signer returns. -/
theorem sign_iff (enc : List Int → Option Bytes) (eth : Bool) (signDyn : SignDyn) (nonce seed m sk sm : Bytes) (hn : nonce.length = 40) (hb : IsBytes nonce) (hm : IsBytes m) :
    (∃ fuel, signWith enc eth fuel signDyn nonce seed m sk = .done sm) ↔ ∃ f g F G c e, decodeSk sk = some (f, g, F, G) ∧ HashesSigned eth nonce m c ∧
      enc (signDyn (Shake.flip (Shake.inject Shake.init seed)) f g F G c) = some e ∧ e.length ≠ 0 ∧
      sm = [((e.length + 1) >>> 8) % 256, (e.length + 1) % 256] ++ nonce ++ m ++ 0x29 :: e := by
  constructor
  · rintro ⟨fuel, h⟩
    unfold signWith at h
    cases hd : decodeSk sk with
    | none => rw [hd] at h; cases h
    | some q =>
      obtain ⟨f, g, F, G⟩ := q
      rw [hd] at h
      simp only at h
      cases hh : hashPieces eth [nonce, m] fuel with
      | none => rw [hh] at h; cases h
      | some c =>
        rw [hh] at h
        simp only at h
        cases he : enc (signDyn (Shake.flip (Shake.inject Shake.init seed)) f g F G c) with
        | none => rw [he] at h; cases h
        | some e =>
          rw [he] at h
          simp only at h
          by_cases h0 : e.length = 0
          · rw [if_pos h0] at h; cases h
          · rw [if_neg h0] at h
            exact ⟨f, g, F, G, c, e, rfl, (hash_two eth nonce m hn hb hm c).1 ⟨fuel, hh⟩, he, h0, by simpa using h.symm⟩
  · rintro ⟨f, g, F, G, c, e, hd, hh, he, h0, hs⟩
    obtain ⟨fuel, hf⟩ := (hash_two eth nonce m hn hb hm c).2 hh
    refine ⟨fuel, ?_⟩
    unfold signWith
    rw [hd]
    simp only
    rw [hf]
    simp only
    rw [he]
    simp only
    rw [if_neg h0, hs]

theorem codeLength_ge : ∀ s : List Int, 9 * s.length ≤ Encoding.Spec.codeLength s
  | [] => Nat.zero_le _
  | c :: s => by
    have := codeLength_ge s
    unfold Encoding.Spec.codeLength
    rw [List.length_cons]
    omega

theorem accepts_bound {h c : List Nat} {s : List Int} (ha : Accepts 512 34034726 h c s) : ∀ x ∈ s, -5833 ≤ x ∧ x ≤ 5833 := by
  obtain ⟨s1, _, _, _, hn⟩ := ha
  intro x hx
  have h1 : x * x ≤ normSq s := by
    unfold normSq
    exact List.single_le_sum (fun y hy => by obtain ⟨z, _, rfl⟩ := List.mem_map.1 hy; exact mul_self_nonneg z) _ (List.mem_map.2 ⟨x, hx, rfl⟩)
  have h2 := normSq_nonneg s1
  have h3 : normSq s1 + normSq s ≤ (34034726 : Int) := hn
  constructor <;> nlinarith

/-- **C87** (sign, then open, 16-bit format): let the lattice signer return a short preimage `s` for the key.  Then signing succeeds as soon as the hash is defined, and the signed message opens to the
message, unless nonce and message exceed 4096 bytes in the Keccak variant, exactly when no coefficient of `s` exceeds 2046. -/
theorem C87_sign_open16 (eth : Bool) (signDyn : SignDyn) (nonce seed m sk pk : Bytes) (h : List Nat) (f g F G : List Int) (c : List Nat) (hn : nonce.length = 40) (hb : IsBytes nonce)
    (hm : IsBytes m) (hlen : eth = true → 40 + m.length ≤ 4096) (hk : IsKey16 h pk) (hd : decodeSk sk = some (f, g, F, G)) (hc : Hashes eth (nonce ++ m) c)
    (hs : (signDyn (Shake.flip (Shake.inject Shake.init seed)) f g F G c).length = 512)
    (ha : Accepts 512 34034726 h c (signDyn (Shake.flip (Shake.inject Shake.init seed)) f g F G c)) :
    ∃ sm, (∃ fuel, signWith encSig16 eth fuel signDyn nonce seed m sk = .done sm) ∧
      ((∃ fuel, signOpen16 eth fuel sm pk = .done m) ↔ ∀ x ∈ signDyn (Shake.flip (Shake.inject Shake.init seed)) f g F G c, x ≤ 2046) := by
  have hbs := accepts_bound ha
  obtain ⟨s, hse⟩ : ∃ s, signDyn (Shake.flip (Shake.inject Shake.init seed)) f g F G c = s := ⟨_, rfl⟩
  rw [hse] at hs ha hbs ⊢
  obtain ⟨ws, hws⟩ : ∃ ws, List.map (fun c : Int => (c % 12289).toNat) s = ws := ⟨_, rfl⟩
  have hwl : ws.length = 512 := by rw [← hws, List.length_map, hs]
  have hwm : ∀ w ∈ ws, w < 12289 := by
    intro w hw
    rw [← hws] at hw
    obtain ⟨x, _, rfl⟩ := List.mem_map.1 hw
    omega
  have hel : (be16 ws).length = 1024 := by rw [be16_length, hwl]
  have henc : encSig16 s = some (be16 ws) := by
    unfold encSig16
    rw [C78_comp_encode16 9 _ s (by rw [hs, e512]), hws]
    exact ⟨fun x hx => by have := hbs x hx; omega, by norm_num, rfl⟩
  have hhs : HashesSigned eth nonce m c := (C82_agree eth nonce m (by rw [hn]; exact hlen) c).2 hc
  refine ⟨[4, 1] ++ nonce ++ m ++ 0x29 :: be16 ws, ?_, ?_⟩
  · rw [sign_iff _ _ _ _ _ _ _ _ hn hb hm]
    refine ⟨f, g, F, G, c, be16 ws, hd, hhs, by rw [hse]; exact henc, by omega, ?_⟩
    rw [hel]
    rfl
  · have hpb : IsBytes pk ∧ pk.length = 1025 := by
      obtain ⟨t, _, ht, rfl⟩ := hk
      exact ⟨isBytes_cons.2 ⟨by norm_num, be16_bytes _ fun w hw => by have := ht.1.2 w hw; omega⟩, by rw [List.length_cons, be16_length, ht.1.1]⟩
    have hsm : IsBytes ([4, 1] ++ nonce ++ m ++ 0x29 :: be16 ws) :=
      isBytes_append.2 ⟨isBytes_append.2 ⟨isBytes_append.2 ⟨by unfold IsBytes; decide, hb⟩, hm⟩, isBytes_cons.2 ⟨by decide, be16_bytes _ fun w hw => by have := hwm w hw; omega⟩⟩
    rw [C81_open16 _ _ _ _ hsm hpb.1 hpb.2]
    have hval : (∀ x ∈ s, x ≤ 2046) → ws.map value16 = s := by
      intro hx
      rw [← hws, List.map_map]
      conv_rhs => rw [← List.map_id s]
      refine List.map_congr_left fun x hxs => ?_
      have b1 := hbs x hxs
      have b2 := hx x hxs
      unfold value16
      simp only [Function.comp_apply, id]
      split
      · omega
      · split <;> omega
    constructor
    · rintro ⟨k, hk2, n2, ws2, c2, p1, p2, p3, p4, p5, p6⟩
      obtain ⟨q1, q2⟩ := parts_unique hn p1 rfl p2
      have q3 := be16_inj (fun w hw => by have := hwm w hw; omega) (fun v hv => by have := p4 v hv; unfold Word16 at this; omega) q2
      rw [← q3] at p6
      intro x hx
      by_contra hcon
      have b1 := hbs x hx
      have b2 := accepts_bound p6 (value16 (x % 12289).toNat) (by
        rw [← hws, List.map_map]
        exact List.mem_map.2 ⟨x, hx, rfl⟩)
      unfold value16 at b2
      rw [if_neg (by omega), if_pos (by omega)] at b2
      omega
    · intro hx
      exact ⟨h, hk, nonce, ws, c, hn, rfl, hwl, fun w hw => Or.inl (hwm w hw), hc, by rw [hval hx]; exact ha⟩

/-- **C87** (sign, then open, NIST format): if the lattice signer returns a short preimage `s`, signing succeeds exactly when `s` has a compressed form of at most 647 bytes, and the signed message
then opens to the message. -/
theorem C87_sign_open14 (eth : Bool) (signDyn : SignDyn) (nonce seed m sk pk : Bytes) (h : List Nat) (f g F G : List Int) (c : List Nat) (hn : nonce.length = 40) (hb : IsBytes nonce)
    (hm : IsBytes m) (hlen : eth = true → 40 + m.length ≤ 4096) (hk : IsKey14 h pk) (hd : decodeSk sk = some (f, g, F, G)) (hc : Hashes eth (nonce ++ m) c)
    (hs : (signDyn (Shake.flip (Shake.inject Shake.init seed)) f g F G c).length = 512)
    (ha : Accepts 512 34034726 h c (signDyn (Shake.flip (Shake.inject Shake.init seed)) f g F G c)) :
    ((∃ sm fuel, signWith encSig eth fuel signDyn nonce seed m sk = .done sm) ↔ ∃ e, IsBytes e ∧ e.length ≤ 647 ∧ IsCompressed (signDyn (Shake.flip (Shake.inject Shake.init seed)) f g F G c) e) ∧
    ∀ sm, (∃ fuel, signWith encSig eth fuel signDyn nonce seed m sk = .done sm) → ∃ fuel, signOpen eth fuel sm pk = .done m := by
  obtain ⟨s, hse⟩ : ∃ s, signDyn (Shake.flip (Shake.inject Shake.init seed)) f g F G c = s := ⟨_, rfl⟩
  rw [hse] at hs ha ⊢
  have hhs : HashesSigned eth nonce m c := (C82_agree eth nonce m (by rw [hn]; exact hlen) c).2 hc
  have henc : ∀ e, encSig s = some e ↔ IsBytes e ∧ e.length ≤ 647 ∧ IsCompressed s e := by
    intro e
    unfold encSig IsCompressed
    rw [C79_comp_encode]
    constructor
    · rintro ⟨h1, h2, h3, h4, h5⟩
      exact ⟨h3, by rw [h4]; exact h2 _ rfl, hs, h1, h4, h5⟩
    · rintro ⟨h3, h6, _, h1, h4, h5⟩
      exact ⟨h1, fun c hc => by cases hc; omega, h3, h4, h5⟩
  have hpos : ∀ e, IsCompressed s e → e.length ≠ 0 := by
    rintro e ⟨h1, _, h3, _⟩
    have : 9 * 512 ≤ Encoding.Spec.codeLength s := by rw [← h1]; exact codeLength_ge s
    omega
  have hu : ∀ f' g' F' G' c' e, decodeSk sk = some (f', g', F', G') → HashesSigned eth nonce m c' → encSig (signDyn (Shake.flip (Shake.inject Shake.init seed)) f' g' F' G' c') = some e → encSig s = some e := by
    intro f' g' F' G' c' e q1 q2 q3
    rw [hd] at q1
    simp only [Option.some.injEq, Prod.mk.injEq] at q1
    obtain ⟨rfl, rfl, rfl, rfl⟩ := q1
    rw [C82_agree eth nonce m (by rw [hn]; exact hlen)] at q2
    rw [hashes_unique q2 hc, hse] at q3
    exact q3
  constructor
  · constructor
    · rintro ⟨sm, h1⟩
      obtain ⟨f', g', F', G', c', e, q1, q2, q3, q4, q5⟩ := (sign_iff _ _ _ _ _ _ _ _ hn hb hm).1 h1
      exact ⟨e, (henc e).1 (hu _ _ _ _ _ _ q1 q2 q3)⟩
    · rintro ⟨e, he⟩
      exact ⟨_, (sign_iff _ _ _ _ _ _ _ _ hn hb hm).2 ⟨f, g, F, G, c, e, hd, hhs, by rw [hse]; exact (henc e).2 he, hpos e he.2.2, rfl⟩⟩
  · intro sm h1
    obtain ⟨f', g', F', G', c', e, q1, q2, q3, q4, q5⟩ := (sign_iff _ _ _ _ _ _ _ _ hn hb hm).1 h1
    obtain ⟨r1, r2, r3⟩ := (henc e).1 (hu _ _ _ _ _ _ q1 q2 q3)
    have hpb : IsBytes pk ∧ pk.length = 897 := by
      obtain ⟨y, hh, hy, rfl⟩ := hk
      have hp2 : packedLen 512 14 = 896 := by decide
      exact ⟨isBytes_cons.2 ⟨by norm_num, hy.1⟩, by rw [List.length_cons, hy.2.1, hh.1, hp2]⟩
    have e8 : ((e.length + 1) >>> 8) % 256 = (e.length + 1) / 256 := by rw [Nat.shiftRight_eq_div_pow]; omega
    rw [e8] at q5
    have hsm : IsBytes sm := by
      rw [q5]
      refine isBytes_append.2 ⟨isBytes_append.2 ⟨isBytes_append.2 ⟨isBytes_cons.2 ⟨by omega, isBytes_cons.2 ⟨by omega, by intro b hb; cases hb⟩⟩, hb⟩, hm⟩, isBytes_cons.2 ⟨by decide, r1⟩⟩
    rw [C81_open14 _ _ _ _ hsm hpb.1 hpb.2]
    exact ⟨h, hk, nonce, e, s, c, hn, q5, r3, hc, ha⟩

/-- **C87**, the whole chain (16-bit format): a key pair made from `f`, `g`, `F`, `h`, with `f` invertible and `G` the short solution of `f·G = g·F` modulo `q`; a signer that returns a short
preimage `s` for this key.  The signed message it makes opens under the public key exactly when no coefficient of `s` exceeds 2046. -/
theorem C87_chain16 (eth : Bool) (signDyn : SignDyn) (nonce seed m sk pk : Bytes) (h : List Nat) (f g F G : List Int) (c : List Nat) (hf : f.length = 512) (hg : g.length = 512)
    (hF : F.length = 512) (hG : G.length = 512) (hh : Poly 512 h) (hkp : keypair16 f g F h = some (pk, sk)) (hu : IsUnitPoly 512 (zq f)) (hGb : ∀ x ∈ G, -127 ≤ x ∧ x ≤ 127)
    (hGe : negMul 512 (zq G) (zq f) = negMul 512 (zq g) (zq F)) (hn : nonce.length = 40) (hb : IsBytes nonce)
    (hm : IsBytes m) (hlen : eth = true → 40 + m.length ≤ 4096) (hc : Hashes eth (nonce ++ m) c)
    (hs : (signDyn (Shake.flip (Shake.inject Shake.init seed)) f g F G c).length = 512)
    (ha : Accepts 512 34034726 h c (signDyn (Shake.flip (Shake.inject Shake.init seed)) f g F G c)) :
    ∃ sm, (∃ fuel, signWith encSig16 eth fuel signDyn nonce seed m sk = .done sm) ∧
      ((∃ fuel, signOpen16 eth fuel sm pk = .done m) ↔ ∀ x ∈ signDyn (Shake.flip (Shake.inject Shake.init seed)) f g F G c, x ≤ 2046) := by
  obtain ⟨h1, _, _, _, _, h6⟩ := (C87_keypair16 f g F h hf hg hF hh).2 pk sk hkp
  exact C87_sign_open16 eth signDyn nonce seed m sk pk h f g F G c hn hb hm hlen h1 ((h6 f g F G).2 ⟨rfl, rfl, rfl, hu, hG, hGb, hGe⟩) hc hs ha

end Verif.CRef
