import Verif.Encoding.Lemmas
import Verif.Encoding.Spec
/-
Properties C01-C05 of encoding.py (compress / decompress / decode16).
-/
namespace Verif.Encoding
open Verif Spec

theorem codeword_eq (c : Int) : encodeCoef c = codeword c := by
  rw [encodeCoef_eq, codeword, Nat.shiftRight_eq_div_pow]; simp

theorem code_eq (v : List Int) : v.flatMap encodeCoef = code v := by
  induction v with
  | nil => rfl
  | cons c v ih => simp only [List.flatMap_cons, code, ih, codeword_eq]

theorem codeLength_eq (v : List Int) : (code v).length = codeLength v := by
  induction v with
  | nil => rfl
  | cons c v ih => rw [code, List.length_append, ih, ← codeword_eq, encodeCoef_length, codeLength]

theorem code_inj_length {u v : List Int} {s t : List Bool} (hl : u.length = v.length)
    (h : code u ++ s = code v ++ t) : u = v ∧ s = t := by
  have h1 := loop_encodeAll u s [] u.length (by simp)
  have h2 := loop_encodeAll v t [] v.length (by simp)
  rw [code_eq, List.nil_append] at h1 h2
  rw [loop_done _ _ _ rfl] at h1 h2
  rw [h, hl, h2] at h1
  have : v = u := by simpa using h1
  subst this
  exact ⟨rfl, by simpa using h⟩

/-- **Exact acceptance condition** (C01, C03, C04): for `n ≥ 1`, `decompress(x, slen, n)` returns the list
`v` if and only if `x` is at most `slen` bytes long, `v` has `n` entries and the bits of `x`
start with the code of `v`. -/
theorem decompress_accepts_iff (x : Bytes) (slen n : Nat) (hn : n ≠ 0) (v : List Int) :
    decompress x slen n = .ok (some v) ↔
      x.length ≤ slen ∧ v.length = n ∧ code v <+: bytesBits x := by
  unfold decompress
  constructor
  · intro h
    split at h
    · cases h
    · rename_i hl
      rcases strip_spec (unpack x) with ⟨_, h2⟩ | ⟨k, r, h1, h2⟩
      · rw [h2] at h; cases h
      · rw [h2] at h
        replace h : loop (r ++ [true]) [] n = .ok (some v) := h
        obtain ⟨h3, a, tail, h4, h5⟩ := loop_some (by simp) h
        refine ⟨by omega, h3, ?_⟩
        rw [List.nil_append] at h4
        subst h4
        rw [← code_eq, ← unpack_eq, h1]
        refine ⟨tail ++ zeros k, ?_⟩
        rw [← List.append_assoc, ← h5]; simp
  · rintro ⟨hl, hv, t, ht⟩
    rw [if_neg (by omega)]
    have hne : v ≠ [] := by rintro rfl; exact hn (by simpa using hv.symm)
    obtain ⟨r, hr⟩ := encodeAll_ends v hne
    rw [unpack_eq, ← ht, ← code_eq, hr, List.append_assoc]
    obtain ⟨t', ht'⟩ := strip_prefix r t
    rw [List.singleton_append, ht']
    show loop (r ++ true :: t') [] n = _
    rw [show r ++ true :: t' = v.flatMap encodeCoef ++ t' by rw [hr]; simp, loop_encodeAll _ _ _ _ (by simp [hv]),
      List.nil_append, loop_done _ _ _ hv]

/-- The degenerate request `n = 0`: any non-zero string is accepted as the empty list, an all-zero one raises. -/
theorem decompress_zero (x : Bytes) (slen : Nat) (hl : x.length ≤ slen) :
    decompress x slen 0 = if AllZero (bytesBits x) then .error .indexError else .ok (some []) := by
  unfold decompress
  rw [if_neg (by omega), unpack_eq]
  rcases strip_spec (bytesBits x) with ⟨h1, h2⟩ | ⟨k, r, h1, h2⟩
  · rw [h2, if_pos h1]; rfl
  · rw [h2, if_neg]
    · show loop (r ++ [true]) [] 0 = _
      exact loop_done _ _ _ rfl
    · intro h; have := h true (by rw [h1]; simp); simp at this

/-- **C02**: `compress(v, slen)` returns `False` exactly when the code of `v` needs more than
`8*slen` bits; otherwise it returns the `slen` bytes consisting of the code of `v` and zero padding. -/
theorem compress_fits_iff (v : List Int) (slen : Nat) :
    (compress v slen = none ↔ 8 * slen < codeLength v) ∧
    (∀ x, compress v slen = some x ↔
      codeLength v ≤ 8 * slen ∧ IsBytes x ∧ x.length = slen ∧ ZeroPadded x (code v)) := by
  have hlen : (encodeAll v).length = codeLength v := by rw [encodeAll_eq, code_eq, codeLength_eq]
  have hcode : encodeAll v = code v := by rw [encodeAll_eq, code_eq]
  rw [compress_eq]
  constructor
  · rw [hlen]; split <;> simp <;> omega
  · intro x
    split
    · rename_i h; simp; omega
    · rename_i h
      simp only [Option.some.injEq]
      have h8 : (encodeAll v ++ zeros (8 * slen - (encodeAll v).length)).length = 8 * slen := by
        simp [zeros]; omega
      constructor
      · rintro rfl
        refine ⟨by omega, packBits_isBytes _, ?_, ?_⟩
        · rw [packBits_length, h8]; omega
        · exact ⟨_, by rw [bytesBits_packBits slen _ h8, hcode]⟩
      · rintro ⟨_, hb, hxl, k, hk⟩
        rw [← packBits_bytesBits x hb, hk, hcode]
        have := congrArg List.length hk
        rw [bytesBits_length, List.length_append, codeLength_eq] at this
        simp only [zeros, List.length_replicate] at this
        rw [codeLength_eq, show 8 * slen - codeLength v = k by omega]

/-- **C01** round trip: what `compress` produces, `decompress` reads back, for every non-empty
list of integers, and also with any longer declared `slen`. -/
theorem decompress_compress (v : List Int) (slen : Nat) (x : Bytes) (hv : v ≠ [])
    (h : compress v slen = some x) :
    x.length = slen ∧ IsBytes x ∧ decompress x slen v.length = .ok (some v) := by
  obtain ⟨_, hb, hl, k, hk⟩ := ((compress_fits_iff v slen).2 x).1 h
  refine ⟨hl, hb, ?_⟩
  rw [decompress_accepts_iff _ _ _ (by simpa using hv)]
  exact ⟨by omega, rfl, _, hk.symm⟩

example : compress [0, -1, 300, -2047] 9 = some [0, 192, 203, 15, 248, 0, 8, 0, 0] ∧
    decompress [0, 192, 203, 15, 248, 0, 8, 0, 0] 9 4 = .ok (some [0, -1, 300, -2047]) := by
  have h : compress [0, -1, 300, -2047] 9 = some [0, 192, 203, 15, 248, 0, 8, 0, 0] := by decide +kernel
  exact ⟨h, (decompress_compress _ 9 _ (by simp) h).2.2⟩

/-- The exclusion of the empty list in C01 is needed: the encoding of `[]` is all zero and raises. -/
example : compress [] 2 = some [0, 0] ∧ decompress [0, 0] 2 0 = .error .indexError := by
  refine ⟨by decide +kernel, ?_⟩
  rw [decompress_zero _ _ (by simp)]; decide +kernel

/-- **C03**: an accepted string yields exactly `n` coefficients, is not too long, and its bits are the code of
these coefficients followed by an (ignored) tail; if the tail is zero, re-compressing gives the
very same string.  In particular the code word "minus zero" is never accepted. -/
theorem decompress_wellformed (x : Bytes) (hx : IsBytes x) (slen n : Nat) (hn : n ≠ 0) (v : List Int)
    (h : decompress x slen n = .ok (some v)) :
    v.length = n ∧ x.length ≤ slen ∧ ∃ tail, bytesBits x = code v ++ tail ∧
      (AllZero tail → compress v x.length = some x) := by
  obtain ⟨h1, h2, t, ht⟩ := (decompress_accepts_iff _ _ _ hn _).1 h
  refine ⟨h2, h1, t, ht.symm, fun hz => ?_⟩
  rw [(compress_fits_iff v x.length).2]
  refine ⟨?_, hx, rfl, t.length, ?_⟩
  · have := congrArg List.length ht
    simp [codeLength_eq] at this; omega
  · rw [← ht]; congr 1; exact List.eq_replicate_of_mem hz

example : decompress [0, 192, 192] 3 2 = .ok (some [0, -1]) := by
  rw [decompress_accepts_iff _ _ _ (by decide)]
  exact ⟨by decide, by decide, by decide +kernel⟩

/-- "minus zero" is refused at any position: after any coefficients, if the next 8 bits are
`1 0000000` and the unary part is empty, the string is never accepted for a larger `n`. -/
theorem decompress_rejects_minus_zero (x : Bytes) (slen n : Nat) (v : List Int) (tail : List Bool)
    (hn : v.length < n)
    (hx : bytesBits x = code v ++ (true :: zeros 7 ++ [true]) ++ tail) (w : List Int) :
    decompress x slen n ≠ .ok (some w) := by
  intro h
  obtain ⟨_, h2, t, ht⟩ := (decompress_accepts_iff _ _ _ (by omega) _).1 h
  rw [hx] at ht
  -- split w at v.length
  have hw : w = w.take v.length ++ w.drop v.length := (List.take_append_drop _ _).symm
  have hc : ∀ a b : List Int, code (a ++ b) = code a ++ code b := by
    intro a b; rw [← code_eq, ← code_eq, ← code_eq, List.flatMap_append]
  rw [hw, hc, List.append_assoc, List.append_assoc] at ht
  obtain ⟨_, ht⟩ := code_inj_length (by simp; omega) ht
  obtain ⟨c, r, hr⟩ : ∃ c r, w.drop v.length = c :: r := by
    cases h' : w.drop v.length with
    | nil => have := congrArg List.length h'; simp at this; omega
    | cons c r => exact ⟨c, r, rfl⟩
  rw [hr, code, codeword] at ht
  have hlow := congrArg (fun l => bitsNat ((l.drop 1).take 7)) ht
  have hs := congrArg (fun l => l.head?) ht
  have hu := congrArg (fun l => l[8]?) ht
  simp only [List.cons_append, List.append_assoc, List.head?_cons, Option.some.injEq, decide_eq_true_eq] at hs
  have e7 : ∀ a : List Bool, List.take 7 (natBits 7 (c.natAbs % 128) ++ a) = natBits 7 (c.natAbs % 128) := by
    intro a; rw [List.take_append_of_le_length (by simp), List.take_of_length_le (by simp)]
  simp only [List.cons_append, List.append_assoc, List.drop_succ_cons, List.drop_zero, e7, bitsNat_natBits] at hlow
  have e8 : bitsNat (List.take 7 (zeros 7 ++ true :: ([] ++ tail))) = 0 := by
    rw [List.take_append_of_le_length (by simp [zeros]), List.take_of_length_le (by simp [zeros]), bitsNat_zeros]
  rw [e8] at hlow
  have h0 : 0 < c.natAbs / 128 := by omega
  obtain ⟨m, hm⟩ : ∃ m, c.natAbs / 128 = m + 1 := ⟨c.natAbs / 128 - 1, by omega⟩
  rw [hm] at hu
  simp [List.getElem?_append, zeros, List.replicate_succ] at hu

example : bytesBits [0, 192, 64, 0] = code [0] ++ (true :: zeros 7 ++ [true]) ++ [false, false, false, false, false, false] ++ zeros 8 := by
  decide +kernel

/-- **C04, negation**: two different strings of the same, full length decompress to the same coefficients. -/
theorem decompress_malleable : ∃ (x y : Bytes) (n slen : Nat) (v : List Int),
    IsBytes x ∧ IsBytes y ∧ x ≠ y ∧ x.length = slen ∧ y.length = slen ∧
      decompress x slen n = .ok (some v) ∧ decompress y slen n = .ok (some v) := by
  refine ⟨[5, 128], [5, 129], 1, 2, [5], by decide, by decide, by decide, rfl, rfl, ?_, ?_⟩ <;>
  · rw [decompress_accepts_iff _ _ _ (by decide)]
    exact ⟨by decide, by decide, by decide +kernel⟩

/-- **C04, how bad it is**: for *every* accepted full-length string, every change of the bits after the
`n`-th code word gives another accepted string with the same coefficients, and so does cutting off
trailing bytes that lie completely after it. -/
theorem decompress_tail_ignored (x y : Bytes) (slen n : Nat) (hn : n ≠ 0) (v : List Int)
    (h : decompress x slen n = .ok (some v)) (hy : y.length ≤ slen)
    (hxy : (bytesBits y).take (codeLength v) = (bytesBits x).take (codeLength v)) :
    decompress y slen n = .ok (some v) := by
  obtain ⟨h1, h2, h3⟩ := (decompress_accepts_iff _ _ _ hn _).1 h
  rw [decompress_accepts_iff _ _ _ hn]
  refine ⟨hy, h2, ?_⟩
  rw [List.prefix_iff_eq_take, codeLength_eq] at h3 ⊢
  rw [hxy]; exact h3

/-- **C04, partial**: uniqueness holds between strings whose bits after the last code word are zero (what an
honest `compress` emits).  Missing for the full property: the code does not check those bits. -/
theorem decompress_unique_partial (x y : Bytes) (hx : IsBytes x) (hy : IsBytes y) (slen n : Nat) (hn : n ≠ 0)
    (v : List Int) (hxv : decompress x slen n = .ok (some v)) (hyv : decompress y slen n = .ok (some v))
    (hl : x.length = y.length)
    (zx : AllZero ((bytesBits x).drop (codeLength v))) (zy : AllZero ((bytesBits y).drop (codeLength v))) :
    x = y := by
  obtain ⟨_, _, h3⟩ := (decompress_accepts_iff _ _ _ hn _).1 hxv
  obtain ⟨_, _, h4⟩ := (decompress_accepts_iff _ _ _ hn _).1 hyv
  apply bytesBits_inj hx hy
  rw [List.prefix_iff_eq_take, codeLength_eq] at h3 h4
  rw [← List.take_append_drop (codeLength v) (bytesBits x), ← List.take_append_drop (codeLength v) (bytesBits y), ← h3, ← h4]
  congr 1
  rw [List.eq_replicate_of_mem zx, List.eq_replicate_of_mem zy]
  simp [hl]

/-- **C05, exact set of crashes**: for byte strings within the length limit, `decompress` raises
IndexError exactly on the all-zero (or empty) strings, ValueError exactly when fewer than `n` code words are
followed by a single `1` bit and zeros; no other exception ever escapes. -/
theorem decompress_raises_iff (x : Bytes) (slen n : Nat) (e : Err) :
    decompress x slen n = .error e ↔
      x.length ≤ slen ∧
      ((e = .indexError ∧ AllZero (bytesBits x)) ∨
       (e = .valueError ∧ ∃ v : List Int, v.length < n ∧ ZeroPadded x (code v ++ [true]))) := by
  unfold decompress
  by_cases hl : x.length > slen
  · simp only [hl, if_true]
    constructor
    · intro h; cases h
    · rintro ⟨h, _⟩; omega
  · simp only [hl, if_false, unpack_eq]
    rcases strip_spec (bytesBits x) with ⟨h1, h2⟩ | ⟨k, r, h1, h2⟩
    · rw [h2]
      constructor
      · intro h
        cases h
        exact ⟨by omega, Or.inl ⟨rfl, h1⟩⟩
      · rintro ⟨_, ⟨rfl, _⟩ | ⟨rfl, v, _, k, hk⟩⟩
        · rfl
        · have := h1 true (by rw [hk]; simp)
          simp at this
    · rw [h2]
      show loop (r ++ [true]) [] n = _ ↔ _
      constructor
      · intro h
        obtain ⟨rfl, a, b, h3, h4⟩ := loop_error h
        refine ⟨by omega, Or.inr ⟨rfl, a, by simpa using h3, k, ?_⟩⟩
        have hb : r = a.flatMap encodeCoef ∧ [true] = [b] := List.append_inj' h4 rfl
        rw [h1, hb.1, code_eq]; simp
      · rintro ⟨_, ⟨rfl, hz⟩ | ⟨rfl, v, hv, k', hk⟩⟩
        · have := hz true (by rw [h1]; simp)
          simp at this
        · have e1 : strip (bytesBits x) = .ok (code v ++ [true]) := by
            rw [hk, List.append_assoc, List.singleton_append, strip_append_true]
          rw [h2] at e1
          have e2 : r ++ [true] = code v ++ [true] := by simpa using e1
          rw [e2, ← code_eq, loop_encodeAll _ _ _ _ (by simp; omega), loop_cons]
          simp [hv]

/-- **C05, negation**: `decompress` raises on concrete strings. -/
theorem decompress_can_raise :
    decompress [0, 0, 0] 3 512 = .error .indexError ∧ decompress [] 666 512 = .error .indexError ∧
    decompress [0, 0xC0] 2 512 = .error .valueError := by
  refine ⟨?_, ?_, ?_⟩
  · rw [decompress_raises_iff]; exact ⟨by decide, Or.inl ⟨rfl, by decide +kernel⟩⟩
  · rw [decompress_raises_iff]; exact ⟨by decide, Or.inl ⟨rfl, by decide +kernel⟩⟩
  · rw [decompress_raises_iff]
    exact ⟨by decide, Or.inr ⟨rfl, [0], by decide, 6, by decide +kernel⟩⟩

/-- **C05, partial**: no exception is possible on a string that begins with a complete code of `n` coefficients. -/
theorem decompress_total_partial (x : Bytes) (slen n : Nat) (v : List Int) (hv : v.length = n) (hn : n ≠ 0)
    (h : code v <+: bytesBits x) : ∃ r, decompress x slen n = .ok r := by
  by_cases hl : x.length ≤ slen
  · exact ⟨some v, (decompress_accepts_iff _ _ _ hn _).2 ⟨hl, hv, h⟩⟩
  · exact ⟨none, by unfold decompress; rw [if_pos (by omega)]⟩

/-- `decode16`: rejects exactly odd lengths; otherwise reads big-endian 16-bit words (the docstring says
little-endian). -/
theorem decode16_spec (ws : List Nat) :
    decode16 (ws.flatMap fun w => [w / 256, w % 256]) = .ok ws := by
  have hl : ∀ ws : List Nat, (ws.flatMap fun w => [w / 256, w % 256]).length = 2 * ws.length := by
    intro ws; induction ws with
    | nil => rfl
    | cons a t ih => simp only [List.flatMap_cons, List.length_append, ih, List.length_cons, List.length_nil]; omega
  have key : ∀ ws : List Nat, (List.range ws.length).map (fun i =>
      (ws.flatMap fun w => [w / 256, w % 256]).getD (2 * i + 1) 0 + ((ws.flatMap fun w => [w / 256, w % 256]).getD (2 * i) 0 <<< 8)) = ws := by
    intro ws
    induction ws with
    | nil => rfl
    | cons a t ih =>
      rw [List.length_cons, List.range_succ_eq_map, List.map_cons, List.map_map]
      have hd : ((a :: t).flatMap fun w => [w / 256, w % 256]).getD (2 * 0 + 1) 0
          + ((a :: t).flatMap fun w => [w / 256, w % 256]).getD (2 * 0) 0 <<< 8 = a := by
        simp [Nat.shiftLeft_eq]; omega
      rw [hd]
      congr 1
  unfold decode16
  rw [hl, if_neg (by omega), show 2 * ws.length / 2 = ws.length by omega, key]

theorem decode16_error_iff (x : Bytes) (e : Err) : decode16 x = .error e ↔ x.length % 2 = 1 ∧ e = .valueError := by
  unfold decode16
  split
  · constructor
    · intro h; cases h; exact ⟨by omega, rfl⟩
    · rintro ⟨_, rfl⟩; rfl
  · constructor
    · intro h; cases h
    · rintro ⟨h, _⟩; omega

end Verif.Encoding
