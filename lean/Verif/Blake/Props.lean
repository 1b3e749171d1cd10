import Verif.Blake.Hash
import Mathlib.Data.Nat.Digits.Defs

/-! # C61: BLAKE2s -/

namespace Verif.Blake

/-! ## The mixing function is a bijection -/

theorem rotR_rotL (x : BitVec 32) (n : ℕ) (hn : n < 32) : (x.rotateLeft n).rotateRight n = x := by
  apply BitVec.eq_of_getLsbD_eq
  intro i hi
  rw [BitVec.getLsbD_rotateRight, Nat.mod_eq_of_lt hn]
  by_cases h : i < 32 - n
  · rw [decide_eq_true h, cond_true, BitVec.getLsbD_rotateLeft, Nat.mod_eq_of_lt hn, decide_eq_false (by omega : ¬ n + i < n), cond_false,
      decide_eq_true (by omega : n + i < 32), Bool.true_and, show n + i - n = i by omega]
  · rw [decide_eq_false h, cond_false, decide_eq_true hi, Bool.true_and, BitVec.getLsbD_rotateLeft, Nat.mod_eq_of_lt hn,
      decide_eq_true (by omega : i - (32 - n) < n), cond_true, show 32 - n + (i - (32 - n)) = i by omega]

theorem rotL_rotR (x : BitVec 32) (n : ℕ) (hn : n < 32) : (x.rotateRight n).rotateLeft n = x := by
  apply BitVec.eq_of_getLsbD_eq
  intro i hi
  rw [BitVec.getLsbD_rotateLeft, Nat.mod_eq_of_lt hn]
  by_cases h : i < n
  · rw [decide_eq_true h, cond_true, BitVec.getLsbD_rotateRight, Nat.mod_eq_of_lt hn, decide_eq_false (by omega : ¬ 32 - n + i < 32 - n), cond_false,
      decide_eq_true (by omega : 32 - n + i < 32), Bool.true_and, show 32 - n + i - (32 - n) = i by omega]
  · rw [decide_eq_false h, cond_false, decide_eq_true hi, Bool.true_and, BitVec.getLsbD_rotateRight, Nat.mod_eq_of_lt hn,
      decide_eq_true (by omega : i - n < 32 - n), cond_true, show n + (i - n) = i by omega]

/-- The inverse of `mixG`. -/
def unmix (a b c d x y : BitVec 32) : BitVec 32 × BitVec 32 × BitVec 32 × BitVec 32 :=
  let b := b.rotateLeft 7 ^^^ c; let c := c - d
  let d := d.rotateLeft 8 ^^^ a; let a := a - y - b
  let b := b.rotateLeft 12 ^^^ c; let c := c - d
  let d := d.rotateLeft 16 ^^^ a; let a := a - x - b
  (a, b, c, d)

theorem xor_cancel (a b : BitVec 32) : a ^^^ b ^^^ b = a := by
  rw [BitVec.xor_assoc, BitVec.xor_self, BitVec.xor_zero]

theorem unmix_mixG (a b c d x y : BitVec 32) : (fun r : BitVec 32 × BitVec 32 × BitVec 32 × BitVec 32 => unmix r.1 r.2.1 r.2.2.1 r.2.2.2 x y) (mixG a b c d x y) = (a, b, c, d) := by
  simp only [unmix, mixG, rotL_rotR _ 7 (by omega), rotL_rotR _ 8 (by omega), rotL_rotR _ 12 (by omega), rotL_rotR _ 16 (by omega), xor_cancel, BitVec.add_sub_cancel]

theorem mixG_unmix (a b c d x y : BitVec 32) : (fun r : BitVec 32 × BitVec 32 × BitVec 32 × BitVec 32 => mixG r.1 r.2.1 r.2.2.1 r.2.2.2 x y) (unmix a b c d x y) = (a, b, c, d) := by
  simp only [unmix, mixG, BitVec.sub_add_cancel, xor_cancel, rotR_rotL _ 7 (by omega), rotR_rotL _ 8 (by omega), rotR_rotL _ 12 (by omega), rotR_rotL _ 16 (by omega)]

theorem toBv {a : ℕ} (h : a < 2 ^ 32) : (BitVec.ofNat 32 a).toNat = a := by rw [BitVec.toNat_ofNat, Nat.mod_eq_of_lt h]

/-- **C61**: for fixed message words `mix` is a bijection on quadruples of 32-bit words. -/
theorem C61_mix_bijective (m0 m1 : ℕ) (h0 : m0 < 2 ^ 32) (h1 : m1 < 2 ^ 32) :
    (∀ a b c d a' b' c' d' : ℕ, a < 2 ^ 32 → b < 2 ^ 32 → c < 2 ^ 32 → d < 2 ^ 32 → a' < 2 ^ 32 → b' < 2 ^ 32 → c' < 2 ^ 32 → d' < 2 ^ 32 →
      mix a b c d m0 m1 = mix a' b' c' d' m0 m1 → a = a' ∧ b = b' ∧ c = c' ∧ d = d') ∧
    (∀ a b c d : ℕ, a < 2 ^ 32 → b < 2 ^ 32 → c < 2 ^ 32 → d < 2 ^ 32 →
      ∃ a' b' c' d' : ℕ, a' < 2 ^ 32 ∧ b' < 2 ^ 32 ∧ c' < 2 ^ 32 ∧ d' < 2 ^ 32 ∧ mix a' b' c' d' m0 m1 = (a, b, c, d)) := by
  constructor
  · intro a b c d a' b' c' d' ha hb hc hd ha' hb' hc' hd' h
    have e := mix_toNat (BitVec.ofNat 32 a) (BitVec.ofNat 32 b) (BitVec.ofNat 32 c) (BitVec.ofNat 32 d) (BitVec.ofNat 32 m0) (BitVec.ofNat 32 m1)
    have e' := mix_toNat (BitVec.ofNat 32 a') (BitVec.ofNat 32 b') (BitVec.ofNat 32 c') (BitVec.ofNat 32 d') (BitVec.ofNat 32 m0) (BitVec.ofNat 32 m1)
    rw [toBv ha, toBv hb, toBv hc, toBv hd, toBv h0, toBv h1] at e
    rw [toBv ha', toBv hb', toBv hc', toBv hd', toBv h0, toBv h1, ← h, e] at e'
    simp only [Prod.mk.injEq, ← BitVec.toNat_eq] at e'
    have u := unmix_mixG (BitVec.ofNat 32 a) (BitVec.ofNat 32 b) (BitVec.ofNat 32 c) (BitVec.ofNat 32 d) (BitVec.ofNat 32 m0) (BitVec.ofNat 32 m1)
    have u' := unmix_mixG (BitVec.ofNat 32 a') (BitVec.ofNat 32 b') (BitVec.ofNat 32 c') (BitVec.ofNat 32 d') (BitVec.ofNat 32 m0) (BitVec.ofNat 32 m1)
    simp only at u u'
    rw [← e'.1, ← e'.2.1, ← e'.2.2.1, ← e'.2.2.2, u] at u'
    simp only [Prod.mk.injEq, BitVec.toNat_eq, toBv ha, toBv hb, toBv hc, toBv hd, toBv ha', toBv hb', toBv hc', toBv hd'] at u'
    exact u'
  · intro a b c d ha hb hc hd
    have u := mixG_unmix (BitVec.ofNat 32 a) (BitVec.ofNat 32 b) (BitVec.ofNat 32 c) (BitVec.ofNat 32 d) (BitVec.ofNat 32 m0) (BitVec.ofNat 32 m1)
    simp only at u
    generalize unmix (BitVec.ofNat 32 a) (BitVec.ofNat 32 b) (BitVec.ofNat 32 c) (BitVec.ofNat 32 d) (BitVec.ofNat 32 m0) (BitVec.ofNat 32 m1) = r at u
    refine ⟨r.1.toNat, r.2.1.toNat, r.2.2.1.toNat, r.2.2.2.toNat, BitVec.isLt _, BitVec.isLt _, BitVec.isLt _, BitVec.isLt _, ?_⟩
    have e := mix_toNat r.1 r.2.1 r.2.2.1 r.2.2.2 (BitVec.ofNat 32 m0) (BitVec.ofNat 32 m1)
    rw [u, toBv h0, toBv h1] at e
    simp only [toBv ha, toBv hb, toBv hc, toBv hd] at e
    exact e

/-! ## The compression function and the hash are those of RFC 7693 -/

/-- **C61**: `blake2s_compress` computes the compression function of RFC 7693, for every chaining value, message block, counter and flag. -/
theorem C61_compress (h m : ℕ → BitVec 32) (t : ℕ) (ht : t < 2 ^ 64) (last : Bool) :
    compress ((List.range 8).map fun i => (h i).toNat) ((List.range 16).map fun i => (m i).toNat) (t % 2 ^ 32) (t / 2 ^ 32) (if last then 0xFFFFFFFF else 0) 0 =
      .ok ((List.range 8).map fun i => (compressF h m t last i).toNat) := by
  refine compress_words ?_ (by simp) h t ht last
  intro i hi
  simp [List.getD_eq_getElem?_getD, hi]

theorem feltWords_lt (encode little : Bool) (p : ℕ) (x : ℤ) : ∀ w ∈ feltWords encode little p x, w < 2 ^ 32 := by
  intro w hw
  unfold feltWords at hw
  simp only [List.mem_map] at hw
  obtain ⟨s, _, rfl⟩ := hw
  rw [show (0xFFFFFFFF : ℕ) = 2 ^ 32 - 1 from rfl, Nat.and_two_pow_sub_one_eq_mod]
  exact Nat.mod_lt _ (by norm_num)

theorem encodeWords_lt (encode little : Bool) (p : ℕ) (data : List ℤ) : ∀ w ∈ encodeWords encode little p data, w < 2 ^ 32 := by
  intro w hw
  unfold encodeWords at hw
  obtain ⟨x, _, h⟩ := List.mem_flatMap.1 hw
  exact feltWords_lt encode little p x w h

/-- The bytes that are hashed: the words, each least significant byte first. -/
def feltBytes (encode little : Bool) (p : ℕ) (data : List ℤ) : Bytes := (encodeWords encode little p data).flatMap wordBytes

/-- **C61**: below 2^32 bytes the result is the BLAKE2s-256 digest of these bytes, read as a little-endian number and reduced. -/
theorem C61_hash (data : List ℤ) (encode little : Bool) (p : ℕ) (hl : (feltBytes encode little p data).length < 2 ^ 32) :
    hashFelts data encode little p = .ok (leValue (digest (feltBytes encode little p data)) % p) := by
  unfold feltBytes at hl ⊢
  rw [length_flatMap] at hl
  unfold hashFelts
  dsimp only
  rw [hashLoop_blake2s _ (encodeWords_lt encode little p data) hl]
  dsimp only
  rw [stateIntoFelt_eq]
  rfl

/-! ## The encoding is injective -/

/-- Digits base `2^32`, least significant first. -/
def dig (cnt v : ℕ) : List ℕ := (List.range cnt).map fun i => v / 2 ^ (32 * i) % 2 ^ 32

theorem dig_inj (cnt v w : ℕ) (hv : v < 2 ^ (32 * cnt)) (hw : w < 2 ^ (32 * cnt)) (h : dig cnt v = dig cnt w) : v = w := by
  have key : ∀ n v, wordSum (fun i => v / 2 ^ (32 * i) % 2 ^ 32) n = v % 2 ^ (32 * n) := by
    intro n v
    induction n with
    | zero => simp [wordSum, Nat.mod_one]
    | succ n ih =>
      show wordSum _ n + v / 2 ^ (32 * n) % 2 ^ 32 * 2 ^ (32 * n) = _
      rw [ih, show 32 * (n + 1) = 32 * n + 32 by ring, pow_add, Nat.mod_mul]
      ring
  have e : ∀ n, n ≤ cnt → wordSum (fun i => v / 2 ^ (32 * i) % 2 ^ 32) n = wordSum (fun i => w / 2 ^ (32 * i) % 2 ^ 32) n := by
    intro n hn
    induction n with
    | zero => rfl
    | succ n ih =>
      have := List.map_inj_left.1 h n (by simp; omega)
      simp only [wordSum, ih (by omega), this]
  have := e cnt (le_refl _)
  rw [key, key, Nat.mod_eq_of_lt hv, Nat.mod_eq_of_lt hw] at this
  exact this

/-- The reduced value. -/
def red (p : ℕ) (x : ℤ) : ℕ := (x % (p : ℤ)).toNat

theorem red_lt {p : ℕ} (hp : 0 < p) (x : ℤ) : red p x < p := by
  unfold red
  have := Int.emod_lt_of_pos x (show (0 : ℤ) < p by omega)
  have := Int.emod_nonneg x (show (p : ℤ) ≠ 0 by omega)
  omega

/-- `feltWords` in terms of digits. -/
theorem feltWords_little (encode : Bool) (p : ℕ) (x : ℤ) :
    feltWords encode true p x = if encode = true then (if red p x < 2 ^ 63 then dig 2 (red p x) else dig 8 (red p x + 2 ^ 255)) else dig 8 (red p x) := by
  have hm : ∀ cnt v, ((List.range cnt).map fun i => 32 * i).map (fun shift => (v >>> shift) &&& 0xFFFFFFFF) = dig cnt v := by
    intro cnt v
    unfold dig
    rw [List.map_map]
    apply List.map_congr_left
    intro i _
    simp only [Function.comp]
    rw [show (0xFFFFFFFF : ℕ) = 2 ^ 32 - 1 from rfl, Nat.and_two_pow_sub_one_eq_mod, Nat.shiftRight_eq_div_pow]
  unfold feltWords
  simp only [if_true]
  rw [hm]
  change dig _ (if _ then red p x + 2 ^ 255 else red p x) = _
  have hr : (x % (p : ℤ)).toNat = red p x := rfl
  simp only [hr]
  cases encode
  · simp
  · by_cases h : red p x < 2 ^ 63
    · have h' : red p x < 9223372036854775808 := h
      simp [h', Nat.not_le.2 h']
    · have h' : 9223372036854775808 ≤ red p x := Nat.not_lt.1 h
      simp [h', Nat.not_lt.2 h']

theorem feltWords_big (encode : Bool) (p : ℕ) (x : ℤ) : feltWords encode false p x = (feltWords encode true p x).reverse := by
  unfold feltWords
  simp only [Bool.false_eq_true, if_false, if_true, List.map_reverse]

/-- A code whose words announce their length by their first symbol is injective on sequences. -/
theorem flatMap_inj {α β : Type} (f : α → List ℕ) (g : α → β) (len : ℕ → ℕ) (h1 : ∀ x, ∃ w r, f x = w :: r ∧ (f x).length = len w) (h2 : ∀ x y, f x = f y → g x = g y) :
    ∀ a b : List α, a.flatMap f = b.flatMap f → a.map g = b.map g := by
  intro a
  induction a with
  | nil =>
    intro b h
    rcases b with _ | ⟨y, b⟩
    · rfl
    · obtain ⟨w, r, e, _⟩ := h1 y
      rw [List.flatMap_cons, e] at h
      simp at h
  | cons x a ih =>
    intro b h
    obtain ⟨w, r, e, l⟩ := h1 x
    rcases b with _ | ⟨y, b⟩
    · rw [List.flatMap_cons, e] at h
      simp at h
    · obtain ⟨w', r', e', l'⟩ := h1 y
      rw [List.flatMap_cons, List.flatMap_cons] at h
      have hw : w = w' := by
        rw [e, e'] at h
        injection h
      subst hw
      obtain ⟨h3, h4⟩ := List.append_inj h (by rw [l, l'])
      rw [List.map_cons, List.map_cons, h2 x y h3, ih b h4]

/-- The number of words announced by the first one. -/
def announced (encode : Bool) (w : ℕ) : ℕ := if encode = true then (if w < 2 ^ 31 then 2 else 8) else 8

theorem dig8_reverse (v : ℕ) : (dig 8 v).reverse = [v / 2 ^ 224 % 2 ^ 32, v / 2 ^ 192 % 2 ^ 32, v / 2 ^ 160 % 2 ^ 32, v / 2 ^ 128 % 2 ^ 32, v / 2 ^ 96 % 2 ^ 32, v / 2 ^ 64 % 2 ^ 32, v / 2 ^ 32 % 2 ^ 32, v / 2 ^ 0 % 2 ^ 32] := rfl

theorem feltWords_inj (encode : Bool) {p : ℕ} (hp : 0 < p) (hp' : p ≤ 2 ^ 255) (x y : ℤ) (h : feltWords encode true p x = feltWords encode true p y) : red p x = red p y := by
  have lx := red_lt hp x
  have ly := red_lt hp y
  rw [feltWords_little, feltWords_little] at h
  have len : ∀ c v, (dig c v).length = c := by intro c v; simp [dig]
  cases encode
  · simp only [Bool.false_eq_true, if_false] at h
    exact dig_inj 8 _ _ (by norm_num at hp' ⊢; omega) (by norm_num at hp' ⊢; omega) h
  · simp only [if_true] at h
    by_cases hx : red p x < 2 ^ 63 <;> by_cases hy : red p y < 2 ^ 63
    · rw [if_pos hx, if_pos hy] at h
      exact dig_inj 2 _ _ (by norm_num at hx ⊢; omega) (by norm_num at hy ⊢; omega) h
    · rw [if_pos hx, if_neg hy] at h
      have := congrArg List.length h
      rw [len, len] at this
      omega
    · rw [if_neg hx, if_pos hy] at h
      have := congrArg List.length h
      rw [len, len] at this
      omega
    · rw [if_neg hx, if_neg hy] at h
      have := dig_inj 8 _ _ (by norm_num at hp' ⊢; omega) (by norm_num at hp' ⊢; omega) h
      omega

theorem announces (encode : Bool) {p : ℕ} (hp : 0 < p) (hp' : p ≤ 2 ^ 255) (x : ℤ) :
    ∃ w r, feltWords encode false p x = w :: r ∧ (feltWords encode false p x).length = announced encode w := by
  have lx := red_lt hp x
  rw [feltWords_big, feltWords_little]
  unfold announced
  cases encode
  · simp only [Bool.false_eq_true, if_false, dig8_reverse]
    exact ⟨_, _, rfl, rfl⟩
  · simp only [if_true]
    by_cases h : red p x < 2 ^ 63
    · rw [if_pos h]
      refine ⟨red p x / 2 ^ 32 % 2 ^ 32, [red p x / 2 ^ 0 % 2 ^ 32], rfl, ?_⟩
      rw [if_pos (by omega)]
      rfl
    · rw [if_neg h, dig8_reverse]
      refine ⟨_, _, rfl, ?_⟩
      rw [if_neg]
      · rfl
      · have e : (red p x + 2 ^ 255) / 2 ^ 224 = red p x / 2 ^ 224 + 2 ^ 31 := by
          rw [show (2 : ℕ) ^ 255 = 2 ^ 31 * 2 ^ 224 by norm_num, Nat.add_mul_div_right _ _ (by norm_num)]
        have e2 : red p x / 2 ^ 224 < 2 ^ 31 := by
          apply Nat.div_lt_of_lt_mul
          rw [← pow_add]
          exact lt_of_lt_of_le lx hp'
        rw [e, Nat.mod_eq_of_lt (by omega)]
        omega

/-- **C61**: in both byte orders, with and without the short form, two lists of field elements have the same words exactly when their elements are equal modulo `prime`. -/
theorem C61_words_injective (encode little : Bool) {p : ℕ} (hp : 0 < p) (hp' : p ≤ 2 ^ 255) (a b : List ℤ) :
    encodeWords encode little p a = encodeWords encode little p b ↔ a.map (· % (p : ℤ)) = b.map (· % (p : ℤ)) := by
  have h2 : ∀ x y, feltWords encode true p x = feltWords encode true p y → x % (p : ℤ) = y % (p : ℤ) := by
    intro x y h
    have := feltWords_inj encode hp hp' x y h
    unfold red at this
    have hx := Int.emod_nonneg x (show (p : ℤ) ≠ 0 by omega)
    have hy := Int.emod_nonneg y (show (p : ℤ) ≠ 0 by omega)
    omega
  have big : ∀ a b : List ℤ, encodeWords encode false p a = encodeWords encode false p b → a.map (· % (p : ℤ)) = b.map (· % (p : ℤ)) := by
    apply flatMap_inj (feltWords encode false p) _ (announced encode) (announces encode hp hp')
    intro x y h
    rw [feltWords_big, feltWords_big] at h
    exact h2 x y (List.reverse_inj.1 h)
  have rev : ∀ a : List ℤ, (encodeWords encode true p a).reverse = encodeWords encode false p a.reverse := by
    intro a
    unfold encodeWords
    rw [List.reverse_flatMap]
    congr 1
    funext x
    rw [feltWords_big]
    rfl
  constructor
  · intro h
    cases little
    · exact big a b h
    · have := big a.reverse b.reverse (by rw [← rev, ← rev, h])
      rw [List.map_reverse, List.map_reverse] at this
      exact List.reverse_inj.1 this
  · intro h
    have hf : ∀ x, feltWords encode little p x = feltWords encode little p (x % (p : ℤ)) := by
      intro x
      unfold feltWords
      rw [Int.emod_emod_of_dvd x (dvd_refl _)]
    have : ∀ a : List ℤ, encodeWords encode little p a = (a.map (· % (p : ℤ))).flatMap (feltWords encode little p) := by
      intro a
      unfold encodeWords
      induction a with
      | nil => rfl
      | cons x a ih => rw [List.map_cons, List.flatMap_cons, List.flatMap_cons, ih, ← hf x]
    rw [this, this, h]

/-- **C61**: so distinct inputs (modulo `prime`) have distinct byte strings hashed by BLAKE2s. -/
theorem C61_bytes_injective (encode little : Bool) {p : ℕ} (hp : 0 < p) (hp' : p ≤ 2 ^ 255) (a b : List ℤ) :
    feltBytes encode little p a = feltBytes encode little p b ↔ a.map (· % (p : ℤ)) = b.map (· % (p : ℤ)) := by
  rw [← C61_words_injective encode little hp hp']
  constructor
  · intro h
    unfold feltBytes at h
    have hl := congrArg List.length h
    rw [length_flatMap, length_flatMap] at hl
    have ha := encodeWords_lt encode little p a
    have hb := encodeWords_lt encode little p b
    generalize encodeWords encode little p a = u at *
    generalize encodeWords encode little p b = v at *
    apply List.ext_getElem (by omega)
    intro i h1 h2
    have e := wordAt_flatMap u ha i
    rw [h, wordAt_flatMap v hb i] at e
    simpa [List.getD_eq_getElem?_getD, h1, h2] using e.symm
  · intro h
    unfold feltBytes
    rw [h]

/-- **C61**: in particular for the default `prime`, in all four modes. -/
theorem C61_default (encode little : Bool) (a b : List ℤ) : feltBytes encode little prime a = feltBytes encode little prime b ↔ a.map (· % (prime : ℤ)) = b.map (· % (prime : ℤ)) :=
  C61_bytes_injective encode little (by norm_num [prime]) (by norm_num [prime]) a b

/-- C61 (refutation across modes): the flag `encode` is not part of what is hashed: four short zeros and one long zero have the same hash. -/
theorem C61_modes_false : ¬ ∀ (a b : List ℤ) (ea eb little : Bool), hashFelts a ea little prime = hashFelts b eb little prime → a.map (· % (prime : ℤ)) = b.map (· % (prime : ℤ)) := by
  intro h
  have := h [0, 0, 0, 0] [0] true false true (by decide +kernel)
  simp at this

/-! ## Non-vacuity -/

/-- The test vector of RFC 7693, appendix B: BLAKE2s-256 of "abc". -/
theorem abc : compress H0 ([0x00636261] ++ List.replicate 15 0) 3 0 0xFFFFFFFF 0 =
    .ok [0x8C5E8C50, 0xE2147C32, 0xA32BA7E1, 0x2F45EB4E, 0x208B4537, 0x293AD69E, 0x4C9B994D, 0x82596786] := by decide +kernel

example : encodeWords true true prime [1, 2 ^ 63, -1] = [1, 0, 0, 2 ^ 31, 0, 0, 0, 0, 0, 2 ^ 31, 0, 0, 0, 0, 0, 0, 17, 2 ^ 27 + 2 ^ 31] := by decide +kernel

example : (feltBytes true false prime [1, 2 ^ 63, -1]).length = 72 ∧ feltBytes true false prime [1, 2 ^ 63] ≠ feltBytes true false prime [2 ^ 63, 1] := by decide +kernel

example : ∃ v, hashFelts [1, 2 ^ 63, -1, 5, 6, 7] true true prime = .ok v ∧ 0 < v := ⟨_, C61_hash _ _ _ _ (by decide +kernel), by
  have : hashFelts [1, 2 ^ 63, -1, 5, 6, 7] true true prime = .ok (leValue (digest (feltBytes true true prime [1, 2 ^ 63, -1, 5, 6, 7])) % prime) := C61_hash _ _ _ _ (by decide +kernel)
  rcases h : leValue (digest (feltBytes true true prime [1, 2 ^ 63, -1, 5, 6, 7])) % prime with _ | n
  · rw [h] at this
    exact absurd this (by decide +kernel)
  · omega⟩

end Verif.Blake
