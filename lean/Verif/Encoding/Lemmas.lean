import Verif.Encoding.Model

namespace Verif.Encoding
open Verif

/-- a bit string is all zero -/
abbrev AllZero (u : List Bool) : Prop := ∀ b ∈ u, b = false

theorem foldl_append_flatMap {α β} (f : α → List β) (v : List α) (a : List β) :
    v.foldl (fun u c => u ++ f c) a = a ++ v.flatMap f := by
  induction v generalizing a with
  | nil => simp
  | cons c v ih => simp [ih]

theorem encodeAll_eq (v : List Int) : encodeAll v = v.flatMap encodeCoef := by
  rw [encodeAll, foldl_append_flatMap, List.nil_append]

theorem unpack_eq (x : Bytes) : unpack x = bytesBits x := by
  rw [unpack, foldl_append_flatMap, List.nil_append, bytesBits]

theorem encodeCoef_length (c : Int) : (encodeCoef c).length = 9 + c.natAbs / 128 := by
  simp only [encodeCoef, List.length_append, natBits_length, List.length_replicate, List.length_cons,
    List.length_nil, Nat.shiftRight_eq_div_pow]
  split <;> simp <;> omega

theorem encodeAll_length (v : List Int) : (encodeAll v).length = (v.map fun c => 9 + c.natAbs / 128).sum := by
  rw [encodeAll_eq, List.length_flatMap]
  congr 1
  apply List.map_congr_left
  intro c _; exact encodeCoef_length c

theorem compress_eq (v : List Int) (slen : Nat) :
    compress v slen = if (encodeAll v).length > 8 * slen then none
      else some (packBits (encodeAll v ++ zeros (8 * slen - (encodeAll v).length))) := rfl

theorem scanUnary_append (h : Nat) (r : List Bool) :
    scanUnary (List.replicate h false ++ true :: r) = some (h, r) := by
  induction h with
  | zero => simp [scanUnary]
  | succ h ih => simp [List.replicate_succ, scanUnary, ih]

theorem scanUnary_some {u : List Bool} {h : Nat} {r : List Bool} (e : scanUnary u = some (h, r)) :
    u = List.replicate h false ++ true :: r := by
  induction u generalizing h with
  | nil => simp [scanUnary] at e
  | cons b u ih =>
    cases b
    · simp only [scanUnary, Option.map_eq_some_iff] at e
      obtain ⟨⟨a, c⟩, h1, h2⟩ := e
      simp only [Prod.mk.injEq] at h2
      obtain ⟨rfl, rfl⟩ := h2
      simp only [List.replicate_succ, List.cons_append]
      rw [← ih h1]
    · simp only [scanUnary, Option.some.injEq, Prod.mk.injEq] at e
      obtain ⟨rfl, rfl⟩ := e; rfl

theorem scanUnary_none {u : List Bool} (e : scanUnary u = none) : AllZero u := by
  induction u with
  | nil => intro b hb; simp at hb
  | cons b u ih =>
    cases b
    · simp only [scanUnary, Option.map_eq_none_iff] at e
      intro b hb
      rcases List.mem_cons.1 hb with rfl | hb
      · rfl
      · exact ih e b hb
    · simp [scanUnary] at e

/-! ### strip -/

theorem stripRev_spec (u : List Bool) :
    (AllZero u ∧ stripRev u = .error .indexError) ∨
    ∃ k r, u = zeros k ++ true :: r ∧ stripRev u = .ok (true :: r) := by
  induction u with
  | nil => left; simp [AllZero, stripRev]
  | cons b u ih =>
    cases b
    · rcases ih with ⟨h1, h2⟩ | ⟨k, r, h1, h2⟩
      · left
        refine ⟨?_, by simp [stripRev, h2]⟩
        intro b hb
        rcases List.mem_cons.1 hb with rfl | hb
        · rfl
        · exact h1 b hb
      · right
        exact ⟨k + 1, r, by simp [zeros, List.replicate_succ, h1], by simp [stripRev, h2]⟩
    · right; exact ⟨0, u, by simp [zeros], by simp [stripRev]⟩

theorem strip_spec (u : List Bool) :
    (AllZero u ∧ strip u = .error .indexError) ∨
    ∃ k r, u = r ++ true :: zeros k ∧ strip u = .ok (r ++ [true]) := by
  rcases stripRev_spec u.reverse with ⟨h1, h2⟩ | ⟨k, r, h1, h2⟩
  · left
    refine ⟨fun b hb => h1 b (by simpa using hb), by simp [strip, h2, Except.map]⟩
  · right
    refine ⟨k, r.reverse, ?_, by simp [strip, h2, Except.map]⟩
    have := congrArg List.reverse h1
    simpa [zeros] using this

theorem strip_append_true (r : List Bool) (k : Nat) : strip (r ++ true :: zeros k) = .ok (r ++ [true]) := by
  rcases strip_spec (r ++ true :: zeros k) with ⟨h, _⟩ | ⟨k', r', h1, h2⟩
  · have := h true (by simp)
    simp at this
  · rw [h2]
    -- the last one bit is unique
    have e := congrArg List.reverse h1
    simp only [List.reverse_append, List.reverse_cons, zeros, List.reverse_replicate] at e
    have key : ∀ (a b : Nat) (s t : List Bool), List.replicate a false ++ true :: s = List.replicate b false ++ true :: t → s = t := by
      intro a
      induction a with
      | zero =>
        intro b s t h
        cases b with
        | zero => simpa using h
        | succ b => simp [List.replicate_succ] at h
      | succ a ih =>
        intro b s t h
        cases b with
        | zero => simp [List.replicate_succ] at h
        | succ b => 
          simp only [List.replicate_succ, List.cons_append, List.cons.injEq, true_and] at h
          exact ih b s t h
    have := key k k' r.reverse r'.reverse (by simpa using e)
    rw [List.reverse_inj] at this
    rw [this]

/-! ### one coefficient -/

theorem coef_of_parts (c : Int) :
    signOf (decide (c < 0)) *
      ((bitsNat (natBits 7 (c.natAbs % 2 ^ 7)) + ((c.natAbs >>> 7) <<< 7) : Nat) : Int) = c := by
  rw [bitsNat_natBits, Nat.shiftRight_eq_div_pow, Nat.shiftLeft_eq]
  have : (c.natAbs % 2 ^ 7 % 2 ^ 7 + c.natAbs / 2 ^ 7 * 2 ^ 7 : Nat) = c.natAbs := by omega
  rw [this]
  by_cases h : c < 0 <;> simp [h, signOf] <;> omega

theorem encodeCoef_eq (c : Int) : encodeCoef c =
    decide (c < 0) :: (natBits 7 (c.natAbs % 2 ^ 7) ++ (List.replicate (c.natAbs >>> 7) false ++ [true])) := by
  by_cases h : c < 0 <;> simp [encodeCoef, h]

theorem loop_nil (v : List Int) (n : Nat) : loop [] v n = .ok (if v.length ≠ n then none else some v) := by
  rw [loop.eq_def]

theorem loop_cons (s : Bool) (t : List Bool) (v : List Int) (n : Nat) :
    loop (s :: t) v n =
      if v.length < n then
        if t = [] then .error .valueError
        else match scanUnary (t.drop 7) with
          | none => .ok none
          | some (high, rest) =>
            if signOf s * ((bitsNat (t.take 7) + (high <<< 7) : Nat) : Int) = 0 ∧ signOf s = -1 then .ok none
            else loop rest (v ++ [signOf s * ((bitsNat (t.take 7) + (high <<< 7) : Nat) : Int)]) n
      else .ok (if v.length ≠ n then none else some v) := by
  rw [loop.eq_def]
  simp only
  have : t.take 7 = [] ↔ t = [] := by cases t <;> simp
  simp only [this]
  congr 1
  congr 1
  split <;> rename_i h <;> simp [h]

theorem loop_encodeCoef (c : Int) (r : List Bool) (v : List Int) (n : Nat) (h : v.length < n) :
    loop (encodeCoef c ++ r) v n = loop r (v ++ [c]) n := by
  rw [encodeCoef_eq, List.cons_append, loop_cons]
  simp only [h, if_true]
  have e1 : List.take 7 (natBits 7 (c.natAbs % 2 ^ 7) ++ (List.replicate (c.natAbs >>> 7) false ++ [true]) ++ r)
      = natBits 7 (c.natAbs % 2 ^ 7) := by
    rw [List.append_assoc, List.take_append_of_le_length (by simp), List.take_of_length_le (by simp)]
  have e2 : List.drop 7 (natBits 7 (c.natAbs % 2 ^ 7) ++ (List.replicate (c.natAbs >>> 7) false ++ [true]) ++ r)
      = List.replicate (c.natAbs >>> 7) false ++ true :: r := by
    rw [List.append_assoc, List.drop_append_of_le_length (by simp), List.drop_of_length_le (by simp)]
    simp
  rw [e1, e2, scanUnary_append, if_neg (by simp)]
  simp only [coef_of_parts]
  rw [if_neg]
  rintro ⟨h0, h1⟩
  subst h0
  simp [signOf] at h1

theorem loop_encodeAll (w : List Int) (r : List Bool) (v : List Int) (n : Nat) (h : v.length + w.length ≤ n) :
    loop (w.flatMap encodeCoef ++ r) v n = loop r (v ++ w) n := by
  induction w generalizing v with
  | nil => simp
  | cons c w ih =>
    simp only [List.length_cons] at h
    rw [List.flatMap_cons, List.append_assoc, loop_encodeCoef c _ v n (by omega), ih _ (by simp; omega)]
    simp

theorem loop_done (u : List Bool) (v : List Int) (n : Nat) (h : v.length = n) : loop u v n = .ok (some v) := by
  cases u with
  | nil => simp [loop_nil, h]
  | cons s t => simp [loop_cons, h]

/-- A successful parse of one coefficient: the string starts with its encoding. -/
theorem parse_coef (s : Bool) (t rest : List Bool) (high : Nat) (h7 : 7 ≤ t.length)
    (e : scanUnary (t.drop 7) = some (high, rest))
    (hz : ¬ (signOf s * ((bitsNat (t.take 7) + (high <<< 7) : Nat) : Int) = 0 ∧ signOf s = -1)) :
    s :: t = encodeCoef (signOf s * ((bitsNat (t.take 7) + (high <<< 7) : Nat) : Int)) ++ rest := by
  have hs := scanUnary_some e
  generalize hm : bitsNat (t.take 7) + (high <<< 7) = m at *
  have hlt : bitsNat (t.take 7) < 2 ^ 7 := by
    have := bitsNat_lt (t.take 7); simpa [Nat.min_eq_left h7] using this
  rw [Nat.shiftLeft_eq] at hm
  have habs : (signOf s * (m : Int)).natAbs = m := by
    cases s <;> simp [signOf]
  rw [encodeCoef_eq, habs]
  have h1 : m % 2 ^ 7 = bitsNat (t.take 7) := by omega
  have h2 : m >>> 7 = high := by rw [Nat.shiftRight_eq_div_pow]; omega
  rw [h1, h2]
  have h3 : natBits 7 (bitsNat (t.take 7)) = t.take 7 := by
    have := natBits_bitsNat (t.take 7); simpa [Nat.min_eq_left h7] using this
  rw [h3]
  have h4 : decide (signOf s * (m : Int) < 0) = s := by
    cases s
    · simp [signOf]
    · simp [signOf] at hz ⊢; omega
  rw [h4]
  simp only [List.cons_append, List.cons.injEq, true_and, List.append_assoc, List.nil_append]
  rw [← hs, List.take_append_drop]

/-- Characterisation of the decoding loop's successes. -/
theorem loop_some {u : List Bool} {v : List Int} {n : Nat} {w : List Int} (hv : v.length ≤ n)
    (h : loop u v n = .ok (some w)) :
    w.length = n ∧ ∃ (a : List Int) (tail : List Bool), w = v ++ a ∧ u = a.flatMap encodeCoef ++ tail := by
  induction hu : u.length using Nat.strongRecOn generalizing u v with
  | _ k ih =>
    cases u with
    | nil =>
      rw [loop_nil] at h
      split at h
      · cases h
      · cases h
        exact ⟨by omega, [], [], by simp, by simp⟩
    | cons s t =>
      rw [loop_cons] at h
      split at h
      · rename_i hlt
        split at h
        · cases h
        · split at h
          · cases h
          · rename_i high rest e
            split at h
            · cases h
            · rename_i hz
              have h7 : 7 ≤ t.length := by
                rcases Nat.lt_or_ge t.length 7 with h7 | h7
                · rw [List.drop_of_length_le (by omega)] at e
                  simp [scanUnary] at e
                · exact h7
              have hp := parse_coef s t rest high h7 e hz
              have hl := scanUnary_length _ _ _ e
              simp only [List.length_drop] at hl
              obtain ⟨h1, a, tail, h2, h3⟩ := ih rest.length (by simp at hu; omega) (by simp; omega) h rfl
              refine ⟨h1, signOf s * ((bitsNat (t.take 7) + (high <<< 7) : Nat) : Int) :: a, tail, ?_, ?_⟩
              rotate_left
              · rw [List.flatMap_cons, List.append_assoc, ← h3]; exact hp
              · rw [h2]; simp
      · split at h
        · cases h
        · cases h
          exact ⟨by omega, [], s :: t, by simp, by simp⟩

/-- Characterisation of the uncaught ValueError: fewer than `n` coefficients, then one bit. -/
theorem loop_error {u : List Bool} {v : List Int} {n : Nat} {e : Err} (h : loop u v n = .error e) :
    e = .valueError ∧ ∃ (a : List Int) (b : Bool), v.length + a.length < n ∧ u = a.flatMap encodeCoef ++ [b] := by
  induction hu : u.length using Nat.strongRecOn generalizing u v with
  | _ k ih =>
    cases u with
    | nil => rw [loop_nil] at h; cases h
    | cons s t =>
      rw [loop_cons] at h
      split at h
      · rename_i hlt
        split at h
        · rename_i h0
          cases h
          exact ⟨rfl, [], s, by simpa using hlt, by simp [h0]⟩
        · split at h
          · cases h
          · rename_i high rest e'
            split at h
            · cases h
            · rename_i hz
              have h7 : 7 ≤ t.length := by
                rcases Nat.lt_or_ge t.length 7 with h7 | h7
                · rw [List.drop_of_length_le (by omega)] at e'
                  simp [scanUnary] at e'
                · exact h7
              have hp := parse_coef s t rest high h7 e' hz
              have hl := scanUnary_length _ _ _ e'
              simp only [List.length_drop] at hl
              obtain ⟨h1, a, tail, h2, h3⟩ := ih rest.length (by simp at hu; omega) h rfl
              refine ⟨h1, signOf s * ((bitsNat (t.take 7) + (high <<< 7) : Nat) : Int) :: a, tail, ?_, ?_⟩
              rotate_left
              · rw [List.flatMap_cons, List.append_assoc, ← h3]; exact hp
              · simp at h2 ⊢; omega
      · cases h

theorem encodeCoef_ends (c : Int) : ∃ r, encodeCoef c = r ++ [true] := by
  refine ⟨(if c < 0 then [true] else [false]) ++ natBits 7 (c.natAbs % 2 ^ 7) ++ List.replicate (c.natAbs >>> 7) false, ?_⟩
  simp [encodeCoef]

theorem encodeAll_ends (v : List Int) (h : v ≠ []) : ∃ r, v.flatMap encodeCoef = r ++ [true] := by
  obtain ⟨l, c, rfl⟩ : ∃ l c, v = l ++ [c] := ⟨_, _, (List.dropLast_concat_getLast h).symm⟩
  obtain ⟨r, hr⟩ := encodeCoef_ends c
  exact ⟨l.flatMap encodeCoef ++ r, by simp [hr]⟩

/-- stripping trailing zeros from `p ++ [true] ++ t` keeps `p ++ [true]` as a prefix -/
theorem strip_prefix (p t : List Bool) : ∃ t', strip (p ++ true :: t) = .ok (p ++ true :: t') := by
  rcases strip_spec t with ⟨h, _⟩ | ⟨k, r, h1, _⟩
  · have : t = zeros t.length := List.eq_replicate_of_mem h
    rw [this, strip_append_true]
    exact ⟨[], rfl⟩
  · subst h1
    rw [show p ++ true :: (r ++ true :: zeros k) = (p ++ true :: r) ++ true :: zeros k by simp, strip_append_true]
    exact ⟨r ++ [true], by simp⟩

end Verif.Encoding
