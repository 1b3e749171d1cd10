import Verif.CRef.Prng
import Verif.CRef.ShakeProps
import Verif.Rng.Props
import Mathlib.Logic.Function.Basic

/-! # C95: the generator of the C signer -/

namespace Verif.CRef.Prng

open Verif.Rng (State words onState inner rounds rfcBlock chachaInput counter0 chunk keyByte seedWord quarter words_length words_getD words_getElem)

/-! ## Specification -/

/-- Where the answers to a history of requests come from: `(chunk, start, length)` for every request; `j` is the current chunk of 512 bytes, `pos < 512` the position in it.  A 64-bit request
needs ten unused bytes, otherwise the rest of the chunk is dropped; a chunk read to the end is replaced at once. -/
def cplan : Nat → Nat → List Req → List (Nat × Nat × Nat)
  | _, _, [] => []
  | j, pos, .u64 :: rs => if pos < 503 then (j, pos, 8) :: cplan j (pos + 8) rs else (j + 1, 0, 8) :: cplan (j + 1) 8 rs
  | j, pos, .u8 :: rs => (j, pos, 1) :: if pos = 511 then cplan (j + 1) 0 rs else cplan j (pos + 1) rs

/-- The bytes at a place of the stream, as a number, least significant first. -/
def valueAt (src : Bytes) (x : Nat × Nat × Nat) : Nat := Rng.leNat (((chunk src x.1).drop x.2.1).take x.2.2)

/-! ## The block function -/

theorem rotl_toNat (x : BitVec 32) (n : ℕ) (hn : n < 32) : rotl x.toNat n = (x.rotateLeft n).toNat := by
  rw [← Rng.roll_toNat x n hn]
  unfold rotl Rng.roll
  have hx := x.isLt
  generalize x.toNat = v at *
  have h1 : v <<< n % 2 ^ 32 = (v % 2 ^ (32 - n)) <<< n := by
    rw [Nat.shiftLeft_eq, Nat.shiftLeft_eq, show 2 ^ 32 = 2 ^ (32 - n) * 2 ^ n by rw [← Nat.pow_add]; congr 1; omega, Nat.mul_mod_mul_right]
  have h2 : v >>> (32 - n) < 2 ^ n := by
    rw [Nat.shiftRight_eq_div_pow]
    apply Nat.div_lt_of_lt_mul
    rw [← Nat.pow_add]
    calc v < 2 ^ 32 := hx
      _ = _ := by congr 1; omega
  rw [h1, Nat.shiftLeft_add_eq_or_of_lt h2]

theorem words_set (f : State) (i : Fin 16) (x : BitVec 32) : (words f).set i x.toNat = words (Function.update f i x) := by
  apply List.ext_getElem
  · simp [words_length]
  · intro n h1 h2
    rw [words_length] at h2
    rw [List.getElem_set, words_getElem _ n h2, words_getElem _ n h2, Function.update_apply]
    by_cases h : i.val = n
    · rw [if_pos h, if_pos (Fin.ext h.symm)]
    · rw [if_neg h, if_neg (fun e => h (by rw [← e]))]

theorem qround_words (f : State) (i j k l : Fin 16) (h : i ≠ j ∧ i ≠ k ∧ i ≠ l ∧ j ≠ k ∧ j ≠ l ∧ k ≠ l) :
    qround (words f) i j k l = words (onState f i j k l) := by
  obtain ⟨h1, h2, h3, h4, h5, h6⟩ := h
  unfold qround
  simp only [words_getD, ← BitVec.toNat_add, ← BitVec.toNat_xor, rotl_toNat _ 16 (by norm_num), rotl_toNat _ 12 (by norm_num), rotl_toNat _ 8 (by norm_num), rotl_toNat _ 7 (by norm_num), words_set]
  congr 1
  funext x
  simp only [Function.update_apply, onState, quarter, h1, h2, h3, h4, h5, h6, h1.symm, h2.symm, h3.symm, h4.symm, h5.symm, h6.symm, if_true, if_false]
  by_cases hi : x = i
  · subst hi; simp [h1, h2, h3]
  by_cases hj : x = j
  · subst hj; simp [h1.symm, h4, h5]
  by_cases hk : x = k
  · subst hk; simp [h2.symm, h4.symm, h6]
  by_cases hl : x = l
  · subst hl; simp [h3.symm, h5.symm, h6.symm]
  · simp [hi, hj, hk, hl]

theorem double_words (f : State) : double (words f) = words (inner f) := by
  unfold double inner
  have q0 : ∀ g, qround (words g) 0 4 8 12 = words (onState g 0 4 8 12) := fun g => qround_words g 0 4 8 12 (by decide)
  have q1 : ∀ g, qround (words g) 1 5 9 13 = words (onState g 1 5 9 13) := fun g => qround_words g 1 5 9 13 (by decide)
  have q2 : ∀ g, qround (words g) 2 6 10 14 = words (onState g 2 6 10 14) := fun g => qround_words g 2 6 10 14 (by decide)
  have q3 : ∀ g, qround (words g) 3 7 11 15 = words (onState g 3 7 11 15) := fun g => qround_words g 3 7 11 15 (by decide)
  have q4 : ∀ g, qround (words g) 0 5 10 15 = words (onState g 0 5 10 15) := fun g => qround_words g 0 5 10 15 (by decide)
  have q5 : ∀ g, qround (words g) 1 6 11 12 = words (onState g 1 6 11 12) := fun g => qround_words g 1 6 11 12 (by decide)
  have q6 : ∀ g, qround (words g) 2 7 8 13 = words (onState g 2 7 8 13) := fun g => qround_words g 2 7 8 13 (by decide)
  have q7 : ∀ g, qround (words g) 3 4 9 14 = words (onState g 3 4 9 14) := fun g => qround_words g 3 4 9 14 (by decide)
  simp only
  rw [q0, q1, q2, q3, q4, q5, q6, q7]

theorem foldl_double (f : State) (n : ℕ) : (List.range n).foldl (fun st _ => double st) (words f) = words (rounds n f) := by
  induction n with
  | zero => rfl
  | succ n ih => rw [List.range_succ, List.foldl_append, ih, List.foldl_cons, List.foldl_nil, double_words, rounds]

/-- The twelve words kept in the state. -/
def keyWords (src : Bytes) : List ℕ := (List.range 12).map fun i => (seedWord src i).toNat

theorem initial_words (src : Bytes) (n : ℕ) (hn : n < 2 ^ 64) :
    ((CW ++ keyWords src).set 14 ((CW ++ keyWords src).getD 14 0 ^^^ n % 2 ^ 32)).set 15
      (((CW ++ keyWords src).set 14 ((CW ++ keyWords src).getD 14 0 ^^^ n % 2 ^ 32)).getD 15 0 ^^^ n >>> 32) = words (chachaInput src (BitVec.ofNat 64 n)) := by
  have e1 : (n % 2 ^ 32) = ((BitVec.ofNat 64 n).extractLsb' 0 32).toNat := by
    rw [BitVec.extractLsb'_toNat, BitVec.toNat_ofNat, Nat.shiftRight_zero]
    omega
  have e2 : n >>> 32 = ((BitVec.ofNat 64 n).extractLsb' 32 32).toNat := by
    rw [BitVec.extractLsb'_toNat, BitVec.toNat_ofNat, Nat.mod_eq_of_lt hn, Nat.mod_eq_of_lt]
    rw [Nat.shiftRight_eq_div_pow]
    omega
  rw [e1, e2]
  show [0x61707865, 0x3320646e, 0x79622d32, 0x6b206574, (seedWord src 0).toNat, (seedWord src 1).toNat, (seedWord src 2).toNat, (seedWord src 3).toNat, (seedWord src 4).toNat,
    (seedWord src 5).toNat, (seedWord src 6).toNat, (seedWord src 7).toNat, (seedWord src 8).toNat, (seedWord src 9).toNat, (seedWord src 10).toNat ^^^ _, (seedWord src 11).toNat ^^^ _] = _
  rw [← BitVec.toNat_xor, ← BitVec.toNat_xor]
  rfl

/-- The final additions, for any addition `ad` of words. -/
theorem finish (ad : ℕ → ℕ → ℕ) (x y : ℕ) (w0 w1 w2 w3 w4 w5 w6 w7 w8 w9 w10 w11 w12 w13 w14 w15 c0 c1 c2 c3 s0 s1 s2 s3 s4 s5 s6 s7 s8 s9 s10 s11 : ℕ) :
    let s := [s0, s1, s2, s3, s4, s5, s6, s7, s8, s9, s10, s11]
    let st := [w0, w1, w2, w3, w4, w5, w6, w7, w8, w9, w10, w11, w12, w13, w14, w15]
    let st := (List.range 4).foldl (fun st v => st.set v (ad (st.getD v 0) ([c0, c1, c2, c3].getD v 0))) st
    let st := (List.range' 4 10).foldl (fun st v => st.set v (ad (st.getD v 0) (s.getD (v - 4) 0))) st
    let st := st.set 14 (ad (st.getD 14 0) x)
    st.set 15 (ad (st.getD 15 0) y) =
      [ad w0 c0, ad w1 c1, ad w2 c2, ad w3 c3, ad w4 s0, ad w5 s1, ad w6 s2, ad w7 s3, ad w8 s4, ad w9 s5, ad w10 s6, ad w11 s7, ad w12 s8, ad w13 s9, ad w14 x, ad w15 y] := by
  simp [List.range, List.range.loop, List.range']

theorem words_explicit (g : State) : words g = [(g 0).toNat, (g 1).toNat, (g 2).toNat, (g 3).toNat, (g 4).toNat, (g 5).toNat, (g 6).toNat, (g 7).toNat, (g 8).toNat, (g 9).toNat, (g 10).toNat,
    (g 11).toNat, (g 12).toNat, (g 13).toNat, (g 14).toNat, (g 15).toNat] := rfl

theorem keyWords_explicit (src : Bytes) : keyWords src = [(seedWord src 0).toNat, (seedWord src 1).toNat, (seedWord src 2).toNat, (seedWord src 3).toNat, (seedWord src 4).toNat, (seedWord src 5).toNat,
    (seedWord src 6).toNat, (seedWord src 7).toNat, (seedWord src 8).toNat, (seedWord src 9).toNat, (seedWord src 10).toNat, (seedWord src 11).toNat] := rfl

/-- **C95**: every block is the RFC 7539 block of the seed words with the 64-bit counter. -/
theorem block_spec (src : Bytes) (n : ℕ) (hn : n < 2 ^ 64) : block (keyWords src) n = words (rfcBlock (chachaInput src (BitVec.ofNat 64 n))) := by
  have hi : (fun i => chachaInput src (BitVec.ofNat 64 n) i) = chachaInput src (BitVec.ofNat 64 n) := rfl
  have h0 := initial_words src n hn
  have hadd : ∀ g f : State, words (fun i => g i + f i) = (List.range 16).map fun i => ((words g).getD i 0 + (words f).getD i 0) % 2 ^ 32 := by
    intro g f
    apply List.ext_getElem
    · simp [words_length]
    · intro m h1 h2
      rw [words_length] at h1
      rw [words_getElem _ m h1, List.getElem_map, List.getElem_range]
      have a := words_getD g ⟨m, h1⟩
      have b := words_getD f ⟨m, h1⟩
      simp only at a b
      rw [a, b, BitVec.toNat_add]
  have hr : words (rfcBlock (chachaInput src (BitVec.ofNat 64 n))) =
      (List.range 16).map fun i => ((words (rounds 10 (chachaInput src (BitVec.ofNat 64 n)))).getD i 0 + (words (chachaInput src (BitVec.ofNat 64 n))).getD i 0) % 2 ^ 32 :=
    hadd (rounds 10 (chachaInput src (BitVec.ofNat 64 n))) (chachaInput src (BitVec.ofNat 64 n))
  rw [hr]
  unfold block
  simp only
  rw [h0, foldl_double]
  rw [← h0]
  generalize rounds 10 (chachaInput src (BitVec.ofNat 64 n)) = g
  rw [words_explicit g, keyWords_explicit]
  generalize n % 2 ^ 32 = a
  generalize n >>> 32 = b
  generalize (g 0).toNat = w0
  generalize (g 1).toNat = w1
  generalize (g 2).toNat = w2
  generalize (g 3).toNat = w3
  generalize (g 4).toNat = w4
  generalize (g 5).toNat = w5
  generalize (g 6).toNat = w6
  generalize (g 7).toNat = w7
  generalize (g 8).toNat = w8
  generalize (g 9).toNat = w9
  generalize (g 10).toNat = w10
  generalize (g 11).toNat = w11
  generalize (g 12).toNat = w12
  generalize (g 13).toNat = w13
  generalize (g 14).toNat = w14
  generalize (g 15).toNat = w15
  generalize (seedWord src 0).toNat = s0
  generalize (seedWord src 1).toNat = s1
  generalize (seedWord src 2).toNat = s2
  generalize (seedWord src 3).toNat = s3
  generalize (seedWord src 4).toNat = s4
  generalize (seedWord src 5).toNat = s5
  generalize (seedWord src 6).toNat = s6
  generalize (seedWord src 7).toNat = s7
  generalize (seedWord src 8).toNat = s8
  generalize (seedWord src 9).toNat = s9
  generalize (seedWord src 10).toNat = s10
  generalize (seedWord src 11).toNat = s11
  exact finish (fun x y => (x + y) % 2 ^ 32) (s10 ^^^ a) (s11 ^^^ b) w0 w1 w2 w3 w4 w5 w6 w7 w8 w9 w10 w11 w12 w13 w14 w15 0x61707865 0x3320646e 0x79622d32 0x6b206574
    s0 s1 s2 s3 s4 s5 s6 s7 s8 s9 s10 s11

/-! ## Refill -/

theorem store_spec (buf : Bytes) (hb : buf.length = 512) (u : ℕ) (hu : u < 8) (st : List ℕ) :
    (store buf u st).length = 512 ∧ ∀ p, p < 512 → (store buf u st).getD p 0 = if p / 4 % 8 = u then st.getD (p / 32) 0 / 256 ^ (p % 4) % 256 else buf.getD p 0 := by
  have key : ∀ m, m ≤ 16 → ∀ b : Bytes, b = (List.range m).foldl (fun buf v =>
      let w := st.getD v 0
      let buf := buf.set ((u <<< 2) + (v <<< 5) + 0) (w % 256)
      let buf := buf.set ((u <<< 2) + (v <<< 5) + 1) ((w >>> 8) % 256)
      let buf := buf.set ((u <<< 2) + (v <<< 5) + 2) ((w >>> 16) % 256)
      buf.set ((u <<< 2) + (v <<< 5) + 3) ((w >>> 24) % 256)) buf →
      b.length = 512 ∧ ∀ p, p < 512 → b.getD p 0 = if p / 4 % 8 = u ∧ p / 32 < m then st.getD (p / 32) 0 / 256 ^ (p % 4) % 256 else buf.getD p 0 := by
    intro m
    induction m with
    | zero => intro _ b hb'; subst hb'; exact ⟨hb, fun p _ => by simp⟩
    | succ m ih =>
      intro hm b hb'
      rw [List.range_succ, List.foldl_append, List.foldl_cons, List.foldl_nil] at hb'
      obtain ⟨b0, hb0⟩ : ∃ b0, (List.range m).foldl (fun buf v =>
        let w := st.getD v 0
        let buf := buf.set ((u <<< 2) + (v <<< 5) + 0) (w % 256)
        let buf := buf.set ((u <<< 2) + (v <<< 5) + 1) ((w >>> 8) % 256)
        let buf := buf.set ((u <<< 2) + (v <<< 5) + 2) ((w >>> 16) % 256)
        buf.set ((u <<< 2) + (v <<< 5) + 3) ((w >>> 24) % 256)) buf = b0 := ⟨_, rfl⟩
      obtain ⟨i1, i2⟩ := ih (by omega) b0 hb0.symm
      rw [hb0] at hb'
      subst hb'
      refine ⟨by simpa using i1, ?_⟩
      intro p hp
      have e := i2 p hp
      simp only [List.getD_eq_getElem?_getD, List.getElem?_set, List.length_set, Nat.shiftLeft_eq, Nat.shiftRight_eq_div_pow] at e ⊢
      rw [i1]
      have hv : m < 16 := by omega
      by_cases c3 : u * 2 ^ 2 + m * 2 ^ 5 + 3 = p
      · have : p / 4 % 8 = u ∧ p / 32 = m ∧ p % 4 = 3 := by omega
        obtain ⟨a1, a2, a3⟩ := this
        have hlt : u * 2 ^ 2 + m * 2 ^ 5 + 3 < 512 := by omega
        rw [if_pos c3, if_pos hlt, if_pos ⟨a1, by omega⟩, a2, a3]
        rfl
      · rw [if_neg c3]
        by_cases c2 : u * 2 ^ 2 + m * 2 ^ 5 + 2 = p
        · have : p / 4 % 8 = u ∧ p / 32 = m ∧ p % 4 = 2 := by omega
          obtain ⟨a1, a2, a3⟩ := this
          have hlt : u * 2 ^ 2 + m * 2 ^ 5 + 2 < 512 := by omega
          rw [if_pos c2, if_pos hlt, if_pos ⟨a1, by omega⟩, a2, a3]
          rfl
        · rw [if_neg c2]
          by_cases c1 : u * 2 ^ 2 + m * 2 ^ 5 + 1 = p
          · have : p / 4 % 8 = u ∧ p / 32 = m ∧ p % 4 = 1 := by omega
            obtain ⟨a1, a2, a3⟩ := this
            have hlt : u * 2 ^ 2 + m * 2 ^ 5 + 1 < 512 := by omega
            rw [if_pos c1, if_pos hlt, if_pos ⟨a1, by omega⟩, a2, a3]
            rfl
          · rw [if_neg c1]
            by_cases c0 : u * 2 ^ 2 + m * 2 ^ 5 + 0 = p
            · have : p / 4 % 8 = u ∧ p / 32 = m ∧ p % 4 = 0 := by omega
              obtain ⟨a1, a2, a3⟩ := this
              have hlt : u * 2 ^ 2 + m * 2 ^ 5 + 0 < 512 := by omega
              rw [if_pos c0, if_pos hlt, if_pos ⟨a1, by omega⟩, a2, a3]
              simp
            · rw [if_neg c0, e]
              have : (p / 4 % 8 = u ∧ p / 32 < m) ↔ (p / 4 % 8 = u ∧ p / 32 < m + 1) := by omega
              by_cases c : p / 4 % 8 = u ∧ p / 32 < m
              · rw [if_pos c, if_pos (this.1 c)]
              · rw [if_neg c, if_neg (fun x => c (this.2 x))]
  obtain ⟨k1, k2⟩ := key 16 le_rfl _ rfl
  refine ⟨k1, ?_⟩
  intro p hp
  have := k2 p hp
  have hp16 : p / 32 < 16 := by omega
  simp only [hp16, and_true] at this
  exact this

attribute [local irreducible] block store

/-- The generator belongs to the seed and has used `8 j` blocks. -/
def Belongs (p : Prng) (src : Bytes) (j : ℕ) : Prop := p.buf.length = 512 ∧ p.s = keyWords src ∧ p.cc = (counter0 src + 8 * j) % 2 ^ 64

theorem refill_spec (p : Prng) (src : Bytes) (j : ℕ) (h : Belongs p src j) : Belongs (refill p) src (j + 1) ∧ (refill p).buf = chunk src j ∧ (refill p).ptr = 0 := by
  obtain ⟨h1, h2, h3⟩ := h
  have key : ∀ m, m ≤ 8 → ∀ x : Bytes × ℕ, x = (List.range m).foldl (refillStep p.s) (p.buf, p.cc) →
      x.1.length = 512 ∧ x.2 = (counter0 src + 8 * j + m) % 2 ^ 64 ∧ ∀ t, t < 512 → t / 4 % 8 < m → x.1.getD t 0 = keyByte src j t := by
    intro m
    induction m with
    | zero => intro _ x hx; subst hx; exact ⟨h1, h3, fun _ _ h => absurd h (by omega)⟩
    | succ m ih =>
      intro hm x hx
      rw [List.range_succ, List.foldl_append, List.foldl_cons, List.foldl_nil] at hx
      obtain ⟨y, hy⟩ : ∃ y, (List.range m).foldl (refillStep p.s) (p.buf, p.cc) = y := ⟨_, rfl⟩
      obtain ⟨i1, i2, i3⟩ := ih (by omega) y hy.symm
      rw [hy] at hx
      subst hx
      obtain ⟨s1, s2⟩ := store_spec y.1 i1 m (by omega) (block p.s y.2)
      refine ⟨s1, ?_, ?_⟩
      · show (y.2 + 1) % 2 ^ 64 = _
        rw [i2, Nat.mod_add_mod, Nat.add_assoc]
      · intro t ht htm
        show (store y.1 m (block p.s y.2)).getD t 0 = _
        rw [s2 t ht]
        by_cases c : t / 4 % 8 = m
        · rw [if_pos c, i2, h2, block_spec _ _ (Nat.mod_lt _ (by norm_num))]
          unfold keyByte
          rw [c]
          have hof : BitVec.ofNat 64 ((counter0 src + 8 * j + m) % 2 ^ 64) = BitVec.ofNat 64 (counter0 src + 8 * j + m) := by
            apply BitVec.eq_of_toNat_eq
            rw [BitVec.toNat_ofNat, BitVec.toNat_ofNat, Nat.mod_mod]
          rw [hof]
          have h16 : t / 32 < 16 := by omega
          have := words_getD (rfcBlock (chachaInput src (BitVec.ofNat 64 (counter0 src + 8 * j + m)))) ⟨t / 32, h16⟩
          simp only at this
          rw [this]
          have : (⟨t / 32, h16⟩ : Fin 16) = Fin.ofNat 16 (t / 4 / 8) := by
            apply Fin.ext
            rw [Fin.val_ofNat]
            show t / 32 = t / 4 / 8 % 16
            omega
          rw [this]
        · rw [if_neg c]
          exact i3 t ht (by omega)
  obtain ⟨k1, k2, k3⟩ := key 8 le_rfl _ rfl
  unfold refill
  refine ⟨⟨k1, h2, ?_⟩, ?_, rfl⟩
  · show ((List.range 8).foldl (refillStep p.s) (p.buf, p.cc)).2 = _
    rw [k2, show counter0 src + 8 * (j + 1) = counter0 src + 8 * j + 8 by ring]
  · show ((List.range 8).foldl (refillStep p.s) (p.buf, p.cc)).1 = _
    apply List.ext_getElem
    · rw [k1, Rng.chunk_length]
    · intro n hn1 hn2
      rw [Rng.chunk_length] at hn2
      have := k3 n hn2 (by omega)
      rw [List.getD_eq_getElem?_getD, List.getElem?_eq_getElem hn1, Option.getD_some] at this
      rw [this]
      simp [chunk]

/-! ## Seed -/

theorem word_spec (tmp : Bytes) (h : IsBytes tmp) (i : ℕ) : word tmp i = (seedWord tmp i).toNat := by
  have hb : ∀ k, tmp.getD k 0 < 256 := by
    intro k
    rw [List.getD_eq_getElem?_getD]
    by_cases hk : k < tmp.length
    · rw [List.getElem?_eq_getElem hk]; exact h _ (List.getElem_mem hk)
    · rw [List.getElem?_eq_none (by omega)]; norm_num
  unfold word seedWord
  rw [Nat.shiftLeft_eq i 2, BitVec.toNat_ofNat, Nat.mul_comm i]
  obtain ⟨a, ha⟩ : ∃ a, tmp.getD (2 ^ 2 * i) 0 = a := ⟨_, rfl⟩
  obtain ⟨b, hb'⟩ : ∃ b, tmp.getD (2 ^ 2 * i + 1) 0 = b := ⟨_, rfl⟩
  obtain ⟨c, hc⟩ : ∃ c, tmp.getD (2 ^ 2 * i + 2) 0 = c := ⟨_, rfl⟩
  obtain ⟨d, hd⟩ : ∃ d, tmp.getD (2 ^ 2 * i + 3) 0 = d := ⟨_, rfl⟩
  have a0 : a < 256 := by rw [← ha]; exact hb _
  have b0 : b < 256 := by rw [← hb']; exact hb _
  have c0 : c < 256 := by rw [← hc]; exact hb _
  have d0 : d < 256 := by rw [← hd]; exact hb _
  norm_num at ha hb' hc hd ⊢
  rw [ha, hb', hc, hd]
  rw [Nat.or_comm a, ← Nat.shiftLeft_add_eq_or_of_lt (show a < 2 ^ 8 by omega), Nat.or_comm (b <<< 8 + a),
    ← Nat.shiftLeft_add_eq_or_of_lt (show b <<< 8 + a < 2 ^ 16 by rw [Nat.shiftLeft_eq]; omega), Nat.or_comm (c <<< 16 + (b <<< 8 + a)),
    ← Nat.shiftLeft_add_eq_or_of_lt (show c <<< 16 + (b <<< 8 + a) < 2 ^ 24 by rw [Nat.shiftLeft_eq, Nat.shiftLeft_eq]; omega)]
  simp only [Nat.shiftLeft_eq]
  omega

/-- **C95**: whatever the buffer held before, a new generator holds the first chunk of the stream of its 56-byte seed. -/
theorem C95_init (buf tmp : Bytes) (hb : buf.length = 512) (h : IsBytes tmp) : Belongs (initWith buf tmp) tmp 1 ∧ (initWith buf tmp).buf = chunk tmp 0 ∧ (initWith buf tmp).ptr = 0 := by
  apply refill_spec _ tmp 0
  refine ⟨hb, ?_, ?_⟩
  · show ((List.range 14).map (word tmp)).take 12 = _
    unfold keyWords
    rw [← List.map_take, List.take_range]
    exact List.map_congr_left fun i _ => word_spec tmp h i
  · show (word tmp 12 + word tmp 13 <<< 32) % 2 ^ 64 = _
    rw [word_spec _ h, word_spec _ h, Nat.shiftLeft_eq, counter0, Nat.mul_zero, Nat.add_zero, Nat.mul_comm (2 ^ 32)]

/-! ## Histories -/

theorem orFold (f : ℕ → ℕ) (hf : ∀ i, f i < 256) : ∀ m, (List.range m).foldl (fun r i => r ||| f i <<< (8 * i)) 0 = Rng.leNat ((List.range m).map f) ∧
    Rng.leNat ((List.range m).map f) < 2 ^ (8 * m) := by
  intro m
  induction m with
  | zero => exact ⟨rfl, by simp [Rng.leNat]⟩
  | succ m ih =>
    have e : Rng.leNat ((List.range (m + 1)).map f) = Rng.leNat ((List.range m).map f) + f m * 2 ^ (8 * m) := by
      have gen : ∀ (l : List ℕ) (x : ℕ), Rng.leNat (l ++ [x]) = Rng.leNat l + x * 2 ^ (8 * l.length) := by
        intro l x
        induction l with
        | nil => simp [Rng.leNat]
        | cons a l ih =>
          show a + 256 * Rng.leNat (l ++ [x]) = a + 256 * Rng.leNat l + _
          rw [ih, List.length_cons, show 8 * (l.length + 1) = 8 * l.length + 8 by ring, pow_add]; ring
      rw [List.range_succ, List.map_append, List.map_singleton, gen, List.length_map, List.length_range]
    constructor
    · rw [List.range_succ, List.foldl_append, List.foldl_cons, List.foldl_nil, ih.1, Nat.or_comm, ← Nat.shiftLeft_add_eq_or_of_lt ih.2, ← List.range_succ, e, Nat.shiftLeft_eq]
      ring
    · rw [e, show 8 * (m + 1) = 8 * m + 8 by ring, pow_add]
      have := hf m
      have := ih.2
      nlinarith [Nat.pos_of_ne_zero (show 2 ^ (8 * m) ≠ 0 by positivity)]

theorem chunk_lt (src : Bytes) (j : ℕ) (i : ℕ) : (chunk src j).getD i 0 < 256 := by
  rw [List.getD_eq_getElem?_getD]
  by_cases h : i < 512
  · rw [List.getElem?_eq_getElem (by rw [Rng.chunk_length]; exact h)]
    simp only [chunk, List.getElem_map, Option.getD_some, keyByte]
    exact Nat.mod_lt _ (by norm_num)
  · rw [List.getElem?_eq_none (by rw [Rng.chunk_length]; omega)]; norm_num

theorem take_drop_eq (l : Bytes) (a k : ℕ) (h : a + k ≤ l.length) : (l.drop a).take k = (List.range k).map fun i => l.getD (a + i) 0 := by
  apply List.ext_getElem
  · simp; omega
  · intro n h1 h2
    simp only [List.length_map, List.length_range] at h2
    rw [List.getElem_take, List.getElem_drop, List.getElem_map, List.getElem_range, List.getD_eq_getElem?_getD, List.getElem?_eq_getElem (by omega)]
    rfl

/-- The generator is at position `pos` of chunk `j`. -/
def At (p : Prng) (src : Bytes) (j pos : ℕ) : Prop := Belongs p src (j + 1) ∧ p.buf = chunk src j ∧ p.ptr = pos ∧ pos < 512

theorem refill_at (p : Prng) (src : Bytes) (j : ℕ) (h : Belongs p src (j + 1)) : At (refill p) src (j + 1) 0 := by
  obtain ⟨h1, h2, h3⟩ := refill_spec p src (j + 1) h
  exact ⟨h1, h2, h3, by norm_num⟩

theorem read64 (p : Prng) (src : Bytes) (j pos : ℕ) (h : At p src j pos) (hp : pos < 503) :
    (List.range 8).foldl (fun r i => r ||| p.buf.getD (p.ptr + i) 0 <<< (8 * i)) 0 = valueAt src (j, pos, 8) ∧ At { p with ptr := p.ptr + 8 } src j (pos + 8) := by
  obtain ⟨h1, h2, h3, h4⟩ := h
  refine ⟨?_, h1, h2, by show p.ptr + 8 = _; rw [h3], by omega⟩
  rw [h2, h3, (orFold (fun i => (chunk src j).getD (pos + i) 0) (fun i => chunk_lt _ _ _) 8).1]
  unfold valueAt
  rw [take_drop_eq _ _ _ (by rw [Rng.chunk_length]; show pos + 8 ≤ 512; omega)]

theorem getU64_spec (p : Prng) (src : Bytes) (j pos : ℕ) (h : At p src j pos) :
    if pos < 503 then (getU64 p).1 = valueAt src (j, pos, 8) ∧ At (getU64 p).2 src j (pos + 8) else (getU64 p).1 = valueAt src (j + 1, 0, 8) ∧ At (getU64 p).2 src (j + 1) 8 := by
  have hptr : p.ptr = pos := h.2.2.1
  split
  · next c =>
    have e : (if p.ptr ≥ 512 - 9 then refill p else p) = p := if_neg (by omega)
    unfold getU64
    simp only [e]
    exact read64 p src j pos h c
  · next c =>
    have e : (if p.ptr ≥ 512 - 9 then refill p else p) = refill p := if_pos (by omega)
    unfold getU64
    simp only [e]
    exact read64 (refill p) src (j + 1) 0 (refill_at p src j h.1) (by norm_num)

theorem getU8_spec (p : Prng) (src : Bytes) (j pos : ℕ) (h : At p src j pos) :
    (getU8 p).1 = valueAt src (j, pos, 1) ∧ if pos = 511 then At (getU8 p).2 src (j + 1) 0 else At (getU8 p).2 src j (pos + 1) := by
  obtain ⟨h1, h2, h3, h4⟩ := h
  constructor
  · show p.buf.getD p.ptr 0 = _
    unfold valueAt
    rw [take_drop_eq _ _ _ (by rw [Rng.chunk_length]; show pos + 1 ≤ 512; omega), h2, h3]
    simp [Rng.leNat]
  · split
    · next c =>
      show At (if p.ptr + 1 = 512 then refill { p with ptr := p.ptr + 1 } else { p with ptr := p.ptr + 1 }) src (j + 1) 0
      rw [if_pos (by omega)]
      exact refill_at _ src j h1
    · next c =>
      show At (if p.ptr + 1 = 512 then refill { p with ptr := p.ptr + 1 } else { p with ptr := p.ptr + 1 }) src j (pos + 1)
      rw [if_neg (by omega)]
      exact ⟨h1, h2, by show p.ptr + 1 = _; rw [h3], by omega⟩

theorem run_spec (src : Bytes) (rs : List Req) (p : Prng) (j pos : ℕ) (h : At p src j pos) : (run p rs).1 = (cplan j pos rs).map (valueAt src) := by
  induction rs generalizing p j pos with
  | nil => rfl
  | cons r rs ih =>
    cases r with
    | u64 =>
      have := getU64_spec p src j pos h
      show (getU64 p).1 :: (run (getU64 p).2 rs).1 = _
      unfold cplan
      by_cases c : pos < 503
      · rw [if_pos c] at this ⊢
        rw [List.map_cons, ← this.1, ← ih _ _ _ this.2]
      · rw [if_neg c] at this ⊢
        rw [List.map_cons, ← this.1, ← ih _ _ _ this.2]
    | u8 =>
      obtain ⟨t1, t2⟩ := getU8_spec p src j pos h
      show (getU8 p).1 :: (run (getU8 p).2 rs).1 = _
      unfold cplan
      rw [List.map_cons, ← t1]
      by_cases c : pos = 511
      · rw [if_pos c] at t2 ⊢
        rw [← ih _ _ _ t2]
      · rw [if_neg c] at t2 ⊢
        rw [← ih _ _ _ t2]

/-- **C95**: the answers to every history of requests, of any length, are the pieces of the ChaCha20 stream of the seed that `cplan` names; the 64-bit block counter wraps. -/
theorem C95_stream (buf tmp : Bytes) (hb : buf.length = 512) (h : IsBytes tmp) (rs : List Req) : (run (initWith buf tmp) rs).1 = (cplan 0 0 rs).map (valueAt tmp) := by
  obtain ⟨h1, h2, h3⟩ := C95_init buf tmp hb h
  exact run_spec tmp rs _ 0 0 ⟨h1, h2, h3, by norm_num⟩

/-- The size of an answer in bytes. -/
def size : Req → Nat
  | .u64 => 8
  | .u8 => 1

theorem cplan_bound (j pos : ℕ) (hp : pos < 512) (rs : List Req) :
    (∀ x ∈ cplan j pos rs, 512 * j + pos ≤ 512 * x.1 + x.2.1 ∧ x.2.1 + x.2.2 ≤ 512) ∧
      (cplan j pos rs).Pairwise (fun x y => 512 * x.1 + x.2.1 + x.2.2 ≤ 512 * y.1 + y.2.1) ∧ (cplan j pos rs).map (·.2.2) = rs.map size := by
  induction rs generalizing j pos with
  | nil => exact ⟨by simp [cplan], List.Pairwise.nil, rfl⟩
  | cons r rs ih =>
    have step : ∀ j' pos' len j2 p2, pos' + len ≤ 512 → p2 < 512 → 512 * j + pos ≤ 512 * j' + pos' → 512 * j' + pos' + len ≤ 512 * j2 + p2 →
        (∀ x ∈ (j', pos', len) :: cplan j2 p2 rs, 512 * j + pos ≤ 512 * x.1 + x.2.1 ∧ x.2.1 + x.2.2 ≤ 512) ∧
          ((j', pos', len) :: cplan j2 p2 rs).Pairwise (fun x y => 512 * x.1 + x.2.1 + x.2.2 ≤ 512 * y.1 + y.2.1) ∧ ((j', pos', len) :: cplan j2 p2 rs).map (·.2.2) = len :: rs.map size := by
      intro j' pos' len j2 p2 a1 a2 a3 a4
      obtain ⟨i1, i2, i3⟩ := ih j2 p2 a2
      refine ⟨?_, List.pairwise_cons.2 ⟨?_, i2⟩, by rw [List.map_cons, i3]⟩
      · intro x hx
        rcases List.mem_cons.1 hx with rfl | hx
        · exact ⟨a3, a1⟩
        · have := i1 x hx; omega
      · intro y hy
        have := i1 y hy
        simp only; omega
    cases r with
    | u64 =>
      unfold cplan
      split
      · exact step _ _ _ _ _ (by omega) (by omega) (by omega) (by omega)
      · exact step _ _ _ _ _ (by omega) (by omega) (by omega) (by omega)
    | u8 =>
      unfold cplan
      split
      · exact step _ _ _ _ _ (by omega) (by omega) (by omega) (by omega)
      · exact step _ _ _ _ _ (by omega) (by omega) (by omega) (by omega)

/-- **C95**: the pieces lie within their chunks, have the requested sizes and follow one another in the stream: no byte is handed out twice. -/
theorem C95_no_reuse (rs : List Req) : (∀ x ∈ cplan 0 0 rs, x.2.1 + x.2.2 ≤ 512) ∧
    (cplan 0 0 rs).Pairwise (fun x y => 512 * x.1 + x.2.1 + x.2.2 ≤ 512 * y.1 + y.2.1) ∧ (cplan 0 0 rs).map (·.2.2) = rs.map size := by
  obtain ⟨h1, h2, h3⟩ := cplan_bound 0 0 (by norm_num) rs
  exact ⟨fun x hx => (h1 x hx).2, h2, h3⟩

end Verif.CRef.Prng
