import Verif.Cli.Model
import Mathlib.Tactic.IntervalCases
import Mathlib.Tactic.Ring

/-! # Lemmas about the text functions -/

namespace Verif.Cli

open Verif

theorem digitVal_digit (base d : ℕ) (hb : base ≤ 16) (h : d < base) : digitVal base (digit d) = some d := by
  have h16 : d < 16 := by omega
  have hn : (digit d).toNat = if d < 10 then 48 + d else 87 + d := by
    interval_cases d <;> rfl
  unfold digitVal
  by_cases h10 : d < 10
  · rw [if_pos h10] at hn
    simp only [hn]
    rw [if_pos (show 48 ≤ 48 + d ∧ 48 + d ≤ 57 by omega), show 48 + d - 48 = d by omega, if_pos h]
  · rw [if_neg h10] at hn
    simp only [hn]
    rw [if_neg (show ¬ (48 ≤ 87 + d ∧ 87 + d ≤ 57) by omega), if_pos (show 97 ≤ 87 + d ∧ 87 + d ≤ 102 by omega), show 87 + d - 87 = d by omega, if_pos h]

/-- The characters of a printed number. -/
def Plain (c : Char) : Prop := c = '-' ∨ ∃ d, d < 10 ∧ c = digit d

theorem Plain.ne {c : Char} (h : Plain c) : isSpace c = false ∧ c ≠ ',' ∧ c ≠ '=' ∧ c ≠ '\n' ∧ c ≠ '[' ∧ c ≠ ']' := by
  rcases h with rfl | ⟨d, hd, rfl⟩
  · decide
  · interval_cases d <;> decide

theorem fmtNatLoop_plain (fuel : ℕ) : ∀ n, ∀ c ∈ fmtNatLoop fuel n, ∃ d, d < 10 ∧ c = digit d := by
  induction fuel with
  | zero => intro n c h; cases h
  | succ f ih =>
    intro n c h
    unfold fmtNatLoop at h
    split at h
    · next hn => exact ⟨n, hn, by simpa using h⟩
    · rw [List.mem_append] at h
      rcases h with h | h
      · exact ih _ c h
      · exact ⟨n % 10, Nat.mod_lt _ (by norm_num), by simpa using h⟩

theorem fmtInt_plain (x : ℤ) : ∀ c ∈ fmtInt x, Plain c := by
  intro c h
  unfold fmtInt at h
  split at h
  · rcases List.mem_cons.1 h with h | h
    · exact Or.inl h
    · exact Or.inr (fmtNatLoop_plain _ _ c h)
  · exact Or.inr (fmtNatLoop_plain _ _ c h)

theorem fmtNatLoop_ne_nil (fuel n : ℕ) : fmtNatLoop (fuel + 1) n ≠ [] := by
  unfold fmtNatLoop
  split
  · exact List.cons_ne_nil _ _
  · simp

theorem fmtInt_ne_nil (x : ℤ) : fmtInt x ≠ [] := by
  unfold fmtInt
  split
  · exact List.cons_ne_nil _ _
  · exact fmtNatLoop_ne_nil _ _

/-- One step of the number reader. -/
def numStep (base : ℕ) (acc : Option ℕ) (c : Char) : Option ℕ := match acc, digitVal base c with
  | some a, some d => some (a * base + d)
  | _, _ => none

theorem parseNat_eq (base : ℕ) (s : Text) (h : s ≠ []) : parseNat base s = s.foldl (numStep base) (some 0) := by
  unfold parseNat
  rw [if_neg h]
  rfl

theorem foldl_fmtNatLoop (fuel : ℕ) : ∀ n, n < fuel → (fmtNatLoop fuel n).foldl (numStep 10) (some 0) = some n := by
  induction fuel with
  | zero => intro n h; omega
  | succ f ih =>
    intro n h
    unfold fmtNatLoop
    split
    · next hn =>
      simp only [List.foldl_cons, List.foldl_nil, numStep, digitVal_digit 10 n (by norm_num) hn]
      simp
    · next hn =>
      rw [List.foldl_append, ih (n / 10) (by omega)]
      simp only [List.foldl_cons, List.foldl_nil, numStep, digitVal_digit 10 (n % 10) (by norm_num) (Nat.mod_lt _ (by norm_num))]
      congr 1
      omega

theorem parseNat_fmtNat (n : ℕ) : parseNat 10 (fmtNat n) = some n := by
  unfold fmtNat
  rw [parseNat_eq _ _ (fmtNatLoop_ne_nil _ _)]
  exact foldl_fmtNatLoop (n + 1) n (by omega)

theorem lstrip_space (s : Text) : lstrip (' ' :: s) = lstrip s := rfl

theorem strip_space (s : Text) : strip (' ' :: s) = strip s := rfl

theorem lstrip_id (a : Char) (s : Text) (ha : isSpace a = false) : lstrip (a :: s) = a :: s := by
  unfold lstrip
  rw [List.dropWhile_cons, ha]
  rfl

/-- A string whose first and last characters are not white space is not changed by `strip`. -/
theorem strip_id (s : Text) (a b : Char) (h1 : s.head? = some a) (h2 : s.getLast? = some b) (ha : isSpace a = false) (hb : isSpace b = false) : strip s = s := by
  obtain ⟨t, rfl⟩ : ∃ t, s = a :: t := by
    cases s with
    | nil => cases h1
    | cons x t => simp only [List.head?_cons, Option.some.injEq] at h1; exact ⟨t, by rw [h1]⟩
  unfold strip
  rw [lstrip_id a t ha]
  have hr : (a :: t).reverse.head? = some b := by rw [List.head?_reverse]; exact h2
  obtain ⟨u, hu⟩ : ∃ u, (a :: t).reverse = b :: u := by
    cases hc : (a :: t).reverse with
    | nil => rw [hc] at hr; cases hr
    | cons x u => rw [hc] at hr; simp only [List.head?_cons, Option.some.injEq] at hr; exact ⟨u, by rw [hr]⟩
  rw [hu, List.dropWhile_cons, hb]
  simp only [Bool.false_eq_true, if_false]
  rw [← hu, List.reverse_reverse]

theorem strip_noSpace (s : Text) (h : ∀ c ∈ s, isSpace c = false) : strip s = s := by
  cases hs : s with
  | nil => rfl
  | cons a t =>
    rw [← hs]
    obtain ⟨b, hb⟩ : ∃ b, s.getLast? = some b := by
      rw [hs]; exact ⟨_, List.getLast?_eq_some_getLast (List.cons_ne_nil _ _)⟩
    exact strip_id s a b (by rw [hs]; rfl) hb (h a (by rw [hs]; simp)) (h b (List.mem_of_getLast? hb))

theorem fmtInt_strip (x : ℤ) : strip (fmtInt x) = fmtInt x := strip_noSpace _ fun c hc => (fmtInt_plain x c hc).ne.1

theorem parseInt_of_strip (s : Text) (x : ℤ) (h : strip s = fmtInt x) : parseInt s = .ok x := by
  unfold parseInt
  rw [h]
  unfold fmtInt
  by_cases hx : x < 0
  · rw [if_pos hx]
    simp only [parseNat_fmtNat]
    congr 1
    omega
  · rw [if_neg hx]
    have hp := parseNat_fmtNat x.natAbs
    have hne := fmtNatLoop_ne_nil x.natAbs x.natAbs
    have hpl := fmtNatLoop_plain (x.natAbs + 1) x.natAbs
    unfold fmtNat at hp ⊢
    generalize fmtNatLoop (x.natAbs + 1) x.natAbs = t at hp hne hpl
    cases t with
    | nil => exact absurd rfl hne
    | cons c r =>
      obtain ⟨d, hd, hc⟩ := hpl c (by simp)
      have h1 : c ≠ '-' := by rw [hc]; interval_cases d <;> decide
      have h2 : c ≠ '+' := by rw [hc]; interval_cases d <;> decide
      split
      · next heq => simp only [List.cons.injEq] at heq; exact absurd heq.1 h1
      · next heq => simp only [List.cons.injEq] at heq; exact absurd heq.1 h2
      · rw [hp]
        simp only []
        congr 1
        omega

theorem parseInt_fmtInt (x : ℤ) : parseInt (fmtInt x) = .ok x := parseInt_of_strip _ _ (fmtInt_strip x)
theorem parseInt_space (x : ℤ) : parseInt (' ' :: fmtInt x) = .ok x := parseInt_of_strip _ _ ((strip_space _).trans (fmtInt_strip x))

theorem fmtNat_int (n : ℕ) : fmtInt n = fmtNat n := by
  unfold fmtInt
  rw [if_neg (by omega)]
  rfl

/-! ## Splitting -/

theorem splitOn_ne_nil (c : Char) (s : Text) : splitOn c s ≠ [] := by
  cases s with
  | nil => exact List.cons_ne_nil _ _
  | cons x r =>
    unfold splitOn
    split
    · exact List.cons_ne_nil _ _
    · split <;> exact List.cons_ne_nil _ _

theorem splitOn_none (c : Char) (s : Text) (h : ∀ x ∈ s, x ≠ c) : splitOn c s = [s] := by
  induction s with
  | nil => rfl
  | cons x r ih =>
    unfold splitOn
    rw [if_neg (h x (by simp)), ih (fun y hy => h y (by simp [hy]))]

theorem splitOn_cons (c : Char) (s r : Text) (h : ∀ x ∈ s, x ≠ c) : splitOn c (s ++ c :: r) = s :: splitOn c r := by
  induction s with
  | nil =>
    rw [List.nil_append]
    conv_lhs => unfold splitOn
    rw [if_pos rfl]
  | cons x t ih =>
    rw [List.cons_append]
    conv_lhs => unfold splitOn
    rw [if_neg (h x (by simp)), ih (fun y hy => h y (by simp [hy]))]

theorem splitOn_join (parts : List Text) : ∀ a, (∀ p ∈ a :: parts, ∀ x ∈ p, x ≠ ',') →
    splitOn ',' (join [',', ' '] (a :: parts)) = a :: parts.map (' ' :: ·) := by
  induction parts with
  | nil => intro a h; exact splitOn_none _ _ (h a (by simp))
  | cons b bs ih =>
    intro a h
    have e : join [',', ' '] (a :: b :: bs) = a ++ ',' :: (' ' :: join [',', ' '] (b :: bs)) := by
      conv_lhs => unfold join
      simp
    rw [e, splitOn_cons _ _ _ (h a (by simp))]
    have hs : splitOn ',' (' ' :: join [',', ' '] (b :: bs)) = (' ' :: b) :: bs.map (' ' :: ·) := by
      unfold splitOn
      rw [if_neg (by decide), ih b (fun p hp => h p (by simp [List.mem_cons.1 hp]))]
    rw [hs, List.map_cons]

theorem parseInts_spaces (l : List ℤ) : parseInts ((l.map fmtInt).map (' ' :: ·)) = .ok l := by
  induction l with
  | nil => rfl
  | cons x l ih =>
    simp only [List.map_cons, parseInts, parseInt_space]
    rw [ih]

theorem parseInts_first (x : ℤ) (l : List ℤ) : parseInts (fmtInt x :: (l.map fmtInt).map (' ' :: ·)) = .ok (x :: l) := by
  simp only [parseInts, parseInt_fmtInt]
  rw [parseInts_spaces]

theorem literalEval_of_strip_list (s : Text) (l : List ℤ) (h : strip s = fmtList l) : literalEval s = .ok (.list l) := by
  unfold literalEval
  rw [h]
  have e : fmtList l = '[' :: (join [',', ' '] (l.map fmtInt) ++ [']']) := by unfold fmtList; simp
  rw [e]
  simp only [List.getLast?_append, List.getLast?_singleton, Option.some_or, if_true, List.dropLast_concat]
  cases l with
  | nil =>
    have : strip (join [',', ' '] (([] : List ℤ).map fmtInt)) = [] := rfl
    rw [if_pos this]
  | cons x l =>
    have hne : strip (join [',', ' '] ((x :: l).map fmtInt)) ≠ [] := by
      obtain ⟨c, t, hc⟩ : ∃ c t, fmtInt x = c :: t := by
        cases hf : fmtInt x with
        | nil => exact absurd hf (fmtInt_ne_nil x)
        | cons c t => exact ⟨c, t, rfl⟩
      have hsp : isSpace c = false := (fmtInt_plain x c (by rw [hc]; simp)).ne.1
      obtain ⟨u, hu⟩ : ∃ u, join [',', ' '] ((x :: l).map fmtInt) = c :: u := by
        rw [List.map_cons]
        cases l with
        | nil => exact ⟨t, by simp only [List.map_nil, join, hc]⟩
        | cons y l => exact ⟨_, by simp only [List.map_cons, join, hc, List.cons_append]; rfl⟩
      rw [hu]
      unfold strip
      rw [lstrip_id c u hsp]
      intro h0
      have h1 : ((c :: u).reverse.dropWhile isSpace) = [] := List.reverse_eq_nil_iff.1 h0
      have h2 : ∀ (w : Text), w.dropWhile isSpace = [] → ∀ y ∈ w, isSpace y = true := by
        intro w
        induction w with
        | nil => intro _ y hy; cases hy
        | cons v w ih =>
          intro hw y hy
          rw [List.dropWhile_cons] at hw
          split at hw
          · next hv =>
            rcases List.mem_cons.1 hy with rfl | hy
            · exact hv
            · exact ih hw y hy
          · cases hw
      have := h2 _ h1 c (by simp)
      rw [hsp] at this
      cases this
    rw [if_neg hne, List.map_cons, splitOn_join _ _ (by
      intro p hp y hy
      rw [← List.map_cons, List.mem_map] at hp
      obtain ⟨z, _, rfl⟩ := hp
      exact (fmtInt_plain z y hy).ne.2.1), parseInts_first]

theorem fmtList_strip (l : List ℤ) : strip (fmtList l) = fmtList l := by
  apply strip_id _ '[' ']' _ _ (by decide) (by decide)
  · unfold fmtList; simp
  · unfold fmtList; rw [List.getLast?_append]; rfl

theorem literalEval_list (l : List ℤ) : literalEval (' ' :: fmtList l) = .ok (.list l) :=
  literalEval_of_strip_list _ _ ((strip_space _).trans (fmtList_strip l))

theorem literalEval_int (x : ℤ) : literalEval (' ' :: fmtInt x) = .ok (.int x) := by
  unfold literalEval
  rw [strip_space, fmtInt_strip]
  have hi := parseInt_fmtInt x
  have hp := fmtInt_plain x
  generalize fmtInt x = t at *
  split
  · next r => exact absurd rfl (hp '[' (by simp)).ne.2.2.2.2.1
  · rw [hi]

theorem literalEval_fmt (v : Val) : literalEval (' ' :: fmtVal v) = .ok v := by
  cases v with
  | int x => exact literalEval_int x
  | list l => exact literalEval_list l

/-- Printed values contain neither `=` nor line breaks. -/
theorem fmtList_chars (l : List ℤ) : ∀ c ∈ fmtList l, c ≠ '=' ∧ c ≠ '\n' := by
  have hj : ∀ parts : List Text, (∀ p ∈ parts, ∀ c ∈ p, c ≠ '=' ∧ c ≠ '\n') → ∀ c ∈ join [',', ' '] parts, c ≠ '=' ∧ c ≠ '\n' := by
    intro parts
    induction parts with
    | nil => intro _ c hc; cases hc
    | cons a as ih =>
      intro h c hc
      cases as with
      | nil => exact h a (by simp) c hc
      | cons b bs =>
        unfold join at hc
        rw [List.mem_append, List.mem_append] at hc
        rcases hc with (hc | hc) | hc
        · exact h a (by simp) c hc
        · simp only [List.mem_cons, List.not_mem_nil, or_false] at hc
          rcases hc with rfl | rfl <;> decide
        · exact ih (fun p hp => h p (by simp [List.mem_cons.1 hp])) c hc
  intro c hc
  unfold fmtList at hc
  rw [List.mem_append, List.mem_append] at hc
  rcases hc with (hc | hc) | hc
  · simp only [List.mem_cons, List.not_mem_nil, or_false] at hc; subst hc; decide
  · refine hj _ ?_ c hc
    intro p hp x hx
    rw [List.mem_map] at hp
    obtain ⟨z, _, rfl⟩ := hp
    have := (fmtInt_plain z x hx).ne
    exact ⟨this.2.2.1, this.2.2.2.1⟩
  · simp only [List.mem_cons, List.not_mem_nil, or_false] at hc; subst hc; decide

theorem fmtVal_chars (v : Val) : ∀ c ∈ fmtVal v, c ≠ '=' ∧ c ≠ '\n' := by
  cases v with
  | int x => intro c hc; have := (fmtInt_plain x c hc).ne; exact ⟨this.2.2.1, this.2.2.2.1⟩
  | list l => exact fmtList_chars l

/-- A line of a key file and the rest of the file. -/
theorem splitOn_assign (name value rest : Text) (hn : ∀ c ∈ name, c ≠ '\n') (hv : ∀ c ∈ value, c ≠ '\n') :
    splitOn '\n' (assignLine name value ++ rest) = (name ++ " = ".toList ++ value) :: splitOn '\n' rest := by
  unfold assignLine
  rw [List.append_assoc (name ++ " = ".toList ++ value), List.singleton_append]
  apply splitOn_cons
  intro x hx
  rw [List.mem_append, List.mem_append] at hx
  rcases hx with (hx | hx) | hx
  · exact hn x hx
  · revert x; decide
  · exact hv x hx

theorem splitOn_eq_line (name value : Text) (hn : ∀ c ∈ name, c ≠ '=') (hv : ∀ c ∈ value, c ≠ '=') :
    splitOn '=' (name ++ " = ".toList ++ value) = [name ++ [' '], ' ' :: value] := by
  have e : name ++ " = ".toList ++ value = (name ++ [' ']) ++ '=' :: (' ' :: value) := by
    have : " = ".toList = [' ', '=', ' '] := rfl
    rw [this]
    simp
  rw [e, splitOn_cons, splitOn_none]
  · intro x hx
    rcases List.mem_cons.1 hx with rfl | hx
    · decide
    · exact hv x hx
  · intro x hx
    rw [List.mem_append] at hx
    rcases hx with hx | hx
    · exact hn x hx
    · simp only [List.mem_cons, List.not_mem_nil, or_false] at hx; subst hx; decide

/-! ## Hexadecimal -/

theorem digit_notSpace (d : ℕ) (h : d < 16) : isSpace (digit d) = false := by
  interval_cases d <;> decide

theorem fromHex_hexOf (b : Bytes) (h : IsBytes b) : fromHex (hexOf b) = .ok b := by
  induction b with
  | nil => rfl
  | cons x b ih =>
    have hx : x < 256 := h x (by simp)
    have e : hexOf (x :: b) = digit (x / 16) :: digit (x % 16) :: hexOf b := rfl
    rw [e]
    unfold fromHex
    rw [digit_notSpace _ (by omega)]
    simp only [Bool.false_eq_true, if_false, digitVal_digit 16 (x / 16) (by norm_num) (by omega), digitVal_digit 16 (x % 16) (by norm_num) (by omega)]
    rw [ih (fun y hy => h y (by simp [hy]))]
    simp only []
    congr 2
    omega

end Verif.Cli
