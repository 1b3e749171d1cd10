import Verif.Packing.Lemmas
import Mathlib.Algebra.BigOperators.Group.List.Basic

/-! # Properties C13, C14: packing and split/merge -/

namespace Verif.Packing

/-- Specification: the little-endian 16-bit packing, `Σ_{k<16} a[16 j + k] · 2^(16 k)`. -/
def packedWord (a : Nat → Nat) (j : Nat) : Nat := ∑ k ∈ Finset.range 16, a (16 * j + k) * 2 ^ (16 * k)

/-- **C13**: `falcon_compact` succeeds exactly on lists of 16-bit values whose length is a multiple of 16, and the `j`-th word
is the little-endian packing of coefficients `16 j … 16 j + 15`. -/
theorem falconCompact_ok_iff (a b : List Nat) :
    falconCompact a = .ok b ↔ a.length % 16 = 0 ∧ (∀ x ∈ a, x < 65536) ∧
      b = (List.range (a.length / 16)).map (packedWord (a.getD · 0)) := by
  by_cases h1 : a.length % 16 = 0
  · by_cases h2 : ∀ x ∈ a, x < 65536
    · rw [falconCompact_eq a h1 h2]
      have e : ∀ j, dig (fun k => a[16 * j + k]!) 16 = packedWord (a.getD · 0) j := by
        intro j; unfold dig packedWord
        apply Finset.sum_congr rfl
        intro k _
        beta_reduce
        rw [List.getElem!_eq_getElem?_getD, List.getD_eq_getElem?_getD]; rfl
      rw [show (fun j => dig (fun k => a[16 * j + k]!) 16) = packedWord (a.getD · 0) from funext e]
      constructor
      · intro h; cases h; exact ⟨h1, h2, rfl⟩
      · rintro ⟨_, _, rfl⟩; rfl
    · refine ⟨fun h => ?_, fun h => absurd h.2.1 h2⟩
      unfold falconCompact at h
      push Not at h2
      rw [if_neg (by omega), if_pos (by
        obtain ⟨x, hx, hx'⟩ := h2
        exact ⟨x, hx, by simpa using hx'⟩)] at h
      cases h
  · refine ⟨fun h => ?_, fun h => absurd h.1 h1⟩
    unfold falconCompact at h
    rw [if_pos h1] at h
    cases h

/-- **C13**: `falcon_compact` is an injection on what it accepts: two accepted lists with the same words are equal. -/
theorem falconCompact_injective (a a' b : List Nat) (h : falconCompact a = .ok b) (h' : falconCompact a' = .ok b) : a = a' := by
  obtain ⟨h1, h2, h3⟩ := (falconCompact_ok_iff _ _).1 h
  obtain ⟨h1', h2', h3'⟩ := (falconCompact_ok_iff _ _).1 h'
  have hl : a.length = a'.length := by
    have : b.length = a.length / 16 := by rw [h3]; simp
    have : b.length = a'.length / 16 := by rw [h3']; simp
    omega
  have hb : ∀ (l : List Nat), (∀ x ∈ l, x < 65536) → ∀ i, l.getD i 0 < 65536 := by
    intro l hl i
    rw [List.getD_eq_getElem?_getD]
    by_cases hi : i < l.length
    · rw [List.getElem?_eq_getElem hi]; exact hl _ (List.getElem_mem _)
    · rw [List.getElem?_eq_none (by omega)]; decide
  apply List.ext_getElem hl
  intro i hi hi'
  have hw : packedWord (a.getD · 0) (i / 16) = packedWord (a'.getD · 0) (i / 16) := by
    rw [h3, hl] at h3'
    exact (List.map_inj_left.1 h3') (i / 16) (by simp; omega)
  have d1 := dig_div (fun k => a.getD (16 * (i / 16) + k) 0) 16 (i % 16) (fun _ _ => hb a h2 _) (by omega)
  have d2 := dig_div (fun k => a'.getD (16 * (i / 16) + k) 0) 16 (i % 16) (fun _ _ => hb a' h2' _) (by omega)
  have hw' : dig (fun k => a.getD (16 * (i / 16) + k) 0) 16 = dig (fun k => a'.getD (16 * (i / 16) + k) 0) 16 := hw
  rw [hw', d2] at d1
  rw [show 16 * (i / 16) + i % 16 = i by omega] at d1
  rw [List.getD_eq_getElem?_getD, List.getD_eq_getElem?_getD, List.getElem?_eq_getElem hi, List.getElem?_eq_getElem hi'] at d1
  exact d1.symm

/-- **C13**: the contract's expansion of a Python-packed polynomial of 512 coefficients is that polynomial,
whatever lies in memory after the 32 words. -/
theorem solExpand_falconCompact (a b : List Nat) (d : Nat → Nat) (hn : a.length = 512) (h : falconCompact a = .ok b) :
    solExpand (asMem b d) = a := by
  obtain ⟨h1, h2, h3⟩ := (falconCompact_ok_iff _ _).1 h
  rw [solExpand_eq]
  apply list_ext_get!
  · simp [hn]
  · intro j hj
    rw [List.length_map, List.length_range] at hj
    rw [map_range_get! _ _ _ hj]
    have hb : asMem b d (j / 16) = packedWord (a.getD · 0) (j / 16) := by
      unfold asMem
      have hl : b.length = 32 := by rw [h3, List.length_map, List.length_range, hn]
      rw [dif_pos (by omega)]
      simp only [h3]; simp
    rw [hb]
    have d1 := dig_div (fun k => a.getD (16 * (j / 16) + k) 0) 16 (j % 16) (fun k _ => by
      rw [List.getD_eq_getElem?_getD]
      by_cases hi : 16 * (j / 16) + k < a.length
      · rw [List.getElem?_eq_getElem hi]; exact h2 _ (List.getElem_mem _)
      · rw [List.getElem?_eq_none (by omega)]; decide) (by omega)
    have : packedWord (a.getD · 0) (j / 16) = dig (fun k => a.getD (16 * (j / 16) + k) 0) 16 := rfl
    rw [this, d1, show 16 * (j / 16) + j % 16 = j by omega, List.getElem!_eq_getElem?_getD, List.getD_eq_getElem?_getD]
    rfl

/-- **C13**: Python packing and contract packing agree. -/
theorem solCompact_eq_falconCompact (a : List Nat) (d : Nat → Nat) (hn : a.length = 512) (h : ∀ x ∈ a, x < 65536) :
    falconCompact a = .ok (solCompact (asMem a d)) := by
  rw [falconCompact_ok_iff]
  refine ⟨by rw [hn], h, ?_⟩
  rw [solCompact_eq]
  · rw [hn]
    apply List.map_congr_left
    intro j hj
    have hj : j < 32 := by simpa using hj
    apply Finset.sum_congr rfl
    intro k hk
    have hk : k < 16 := by simpa using hk
    beta_reduce
    rw [asMem_lt_getD _ _ _ (by omega)]
  · intro i hi
    rw [asMem_lt _ _ _ (by omega)]; exact h _ (List.getElem_mem _)

/-- **C13**: contract expansion inverts contract compaction, for 512 words holding 16-bit values. -/
theorem solExpand_solCompact (a : List Nat) (d d' : Nat → Nat) (hn : a.length = 512) (h : ∀ x ∈ a, x < 65536) :
    solExpand (asMem (solCompact (asMem a d)) d') = a :=
  solExpand_falconCompact a _ d' hn (solCompact_eq_falconCompact a d hn h)

/-- **C13**: contract compaction inverts contract expansion, for every 32 words (all bits free). -/
theorem solCompact_solExpand (b : List Nat) (d d' : Nat → Nat) (hn : b.length = 32) (h : ∀ w ∈ b, w < 2 ^ 256) :
    solCompact (asMem (solExpand (asMem b d)) d') = b := by
  have hl : (solExpand (asMem b d)).length = 512 := by rw [solExpand_eq]; simp
  have hat : ∀ i < 512, asMem (solExpand (asMem b d)) d' i = asMem b d (i / 16) / 2 ^ (16 * (i % 16)) % 65536 := by
    intro i hi
    rw [asMem_lt _ _ _ (by omega)]
    simp only [solExpand_eq, List.getElem_map, List.getElem_range]
  rw [solCompact_eq _ (fun i hi => by rw [hat i hi]; exact Nat.mod_lt _ (by norm_num))]
  apply List.ext_getElem
  · rw [List.length_map, List.length_range, hn]
  · intro j h1 h2
    rw [hn] at h2
    rw [List.getElem_map, List.getElem_range]
    have e : dig (fun k => asMem (solExpand (asMem b d)) d' (16 * j + k)) 16 = dig (fun k => b[j] / 2 ^ (16 * k) % 65536) 16 := by
      apply Finset.sum_congr rfl
      intro k hk
      have hk : k < 16 := by simpa using hk
      beta_reduce
      rw [hat _ (by omega), show (16 * j + k) / 16 = j by omega, show (16 * j + k) % 16 = k by omega]
      rw [asMem_lt _ _ _ (by omega)]
    rw [e, dig_of_word, Nat.mod_eq_of_lt (h _ (List.getElem_mem _))]

theorem swap_loop (N : Nat) (a : List Nat) (d : Nat → Nat) (hn : a.length = N) :
    (List.range N).foldl (fun m i => m.set (N - 1 - i) (asMem a d i)) (List.replicate N 0) = a.reverse := by
  obtain ⟨w1, w2, _⟩ := write_loop (fun i => N - 1 - i) (asMem a d) N (by intro i _ j _ h; omega) (List.replicate N 0)
  apply list_ext_get!
  · rw [w1, List.length_replicate, List.length_reverse, hn]
  · intro j hj
    rw [w1, List.length_replicate] at hj
    have := w2 (N - 1 - j) (by omega) (by rw [List.length_replicate]; omega)
    rw [show N - 1 - (N - 1 - j) = j by omega] at this
    rw [this, getElem!_pos _ _ (by rw [List.length_reverse]; omega), List.getElem_reverse, asMem_lt _ _ _ (by omega)]
    congr 1; omega

/-- `Swap` reverses the 512 coefficients, hence is an involution. -/
theorem solSwap_eq (a : List Nat) (d : Nat → Nat) (hn : a.length = 512) : solSwap (asMem a d) = a.reverse :=
  swap_loop 512 a d hn

/-- `Swap` is an involution. -/
theorem solSwap_solSwap (a : List Nat) (d d' : Nat → Nat) (hn : a.length = 512) : solSwap (asMem (solSwap (asMem a d)) d') = a := by
  rw [solSwap_eq a d hn, solSwap_eq _ d' (by rw [List.length_reverse, hn]), List.reverse_reverse]

/-- `falcon_compact` on a concrete 16-coefficient list. -/
example : falconCompact ([1, 2] ++ List.replicate 14 0) = .ok [0x20001] := by decide
example : falconCompact [1, 2] = .error .assertError := by decide
example : falconCompact (List.replicate 15 0 ++ [65536]) = .error .assertError := by decide
/-- The hypotheses of the 512-coefficient theorems are met. -/
example : (List.replicate 512 65535).length = 512 ∧ ∀ x ∈ List.replicate 512 65535, x < 65536 :=
  ⟨List.length_replicate, fun x hx => by rw [(List.mem_replicate.1 hx).2]; norm_num⟩
example : solExpand (asMem (solCompact (asMem (List.replicate 512 65535) 0)) 0) = List.replicate 512 65535 :=
  solExpand_solCompact _ _ _ List.length_replicate fun x hx => by rw [(List.mem_replicate.1 hx).2]; norm_num

section SplitMerge
variable {α : Type} [Inhabited α]

theorem split_length (f : List α) : (split f).1.length = f.length / 2 ∧ (split f).2.length = f.length / 2 := by
  simp [split]

/-- The interleaving of two lists, the specification of `merge`. -/
def interleave : List α → List α → List α
  | a :: as, b :: bs => a :: b :: interleave as bs
  | _, _ => []

omit [Inhabited α] in
theorem interleave_length (f0 f1 : List α) (h : f0.length = f1.length) : (interleave f0 f1).length = 2 * f0.length := by
  induction f0 generalizing f1 with
  | nil => simp [interleave]
  | cons a as ih =>
    cases f1 with
    | nil => simp at h
    | cons b bs => simp only [interleave, List.length_cons] at h ⊢; rw [ih bs (by omega)]; omega

theorem interleave_get (f0 f1 : List α) (h : f0.length = f1.length) (i : Nat) (hi : i < f0.length) :
    (interleave f0 f1)[2 * i]! = f0[i]! ∧ (interleave f0 f1)[2 * i + 1]! = f1[i]! := by
  induction f0 generalizing f1 i with
  | nil => simp at hi
  | cons a as ih =>
    cases f1 with
    | nil => simp at h
    | cons b bs =>
      cases i with
      | zero => simp [interleave]
      | succ i =>
        have := ih bs (by simpa using h) i (by simpa using hi)
        simp only [interleave, show 2 * (i + 1) = 2 * i + 1 + 1 by ring, List.getElem!_cons_succ]
        exact this

theorem merge_loop (f0 f1 l : List α) (hl : l.length = 2 * f0.length) (N : Nat) (hN : N ≤ f0.length) :
    ((List.range N).foldl (fun f i => (f.set (2 * i) f0[i]!).set (2 * i + 1) f1[i]!) l).length = l.length ∧
    ∀ i < N, ((List.range N).foldl (fun f i => (f.set (2 * i) f0[i]!).set (2 * i + 1) f1[i]!) l)[2 * i]! = f0[i]! ∧
      ((List.range N).foldl (fun f i => (f.set (2 * i) f0[i]!).set (2 * i + 1) f1[i]!) l)[2 * i + 1]! = f1[i]! := by
  induction N with
  | zero => simp
  | succ N ih =>
    obtain ⟨h1, h2⟩ := ih (by omega)
    simp only [List.range_succ, List.foldl_append, List.foldl_cons, List.foldl_nil]
    refine ⟨by rw [List.length_set, List.length_set, h1], fun i hi => ?_⟩
    simp only [getElem!_set, List.length_set, h1, hl]
    by_cases h : i = N
    · subst h
      rw [if_neg (by omega), if_pos (by omega), if_pos (by omega)]
      exact ⟨rfl, rfl⟩
    · rw [if_neg (by omega), if_neg (by omega), if_neg (by omega), if_neg (by omega)]
      exact h2 i (by omega)

/-- **C14**: `merge` of two lists of equal length is their interleaving. -/
theorem merge_eq (f0 f1 : List α) (h : f0.length = f1.length) : merge f0 f1 = .ok (interleave f0 f1) := by
  unfold merge
  rw [if_neg (by omega)]
  obtain ⟨h1, h2⟩ := merge_loop f0 f1 (List.replicate (2 * f0.length) default) (by simp) f0.length (le_refl _)
  congr 1
  apply list_ext_get!
  · rw [h1, interleave_length f0 f1 h]; simp
  · intro j hj
    rw [h1, List.length_replicate] at hj
    obtain ⟨a1, a2⟩ := h2 (j / 2) (by omega)
    obtain ⟨b1, b2⟩ := interleave_get f0 f1 h (j / 2) (by omega)
    rcases Nat.even_or_odd' j with ⟨c, hc | hc⟩
    · rw [show 2 * (j / 2) = j by omega] at a1 b1; rw [a1, b1]
    · rw [show 2 * (j / 2) + 1 = j by omega] at a2 b2; rw [a2, b2]

/-- **C14**: `merge(split(f)) = f` for every list of even length. -/
theorem merge_split (f : List α) (h : f.length % 2 = 0) : merge (split f).1 (split f).2 = .ok f := by
  obtain ⟨l1, l2⟩ := split_length f
  rw [merge_eq _ _ (by rw [l1, l2])]
  congr 1
  apply list_ext_get!
  · rw [interleave_length _ _ (by rw [l1, l2]), l1]; omega
  · intro j hj
    rw [interleave_length _ _ (by rw [l1, l2]), l1] at hj
    obtain ⟨b1, b2⟩ := interleave_get (split f).1 (split f).2 (by rw [l1, l2]) (j / 2) (by omega)
    have c1 : (split f).1[j / 2]! = f[2 * (j / 2)]! := map_range_get! _ _ _ (by omega)
    have c2 : (split f).2[j / 2]! = f[2 * (j / 2) + 1]! := map_range_get! _ _ _ (by omega)
    rcases Nat.even_or_odd' j with ⟨c, hc | hc⟩
    · rw [c1, show 2 * (j / 2) = j by omega] at b1; exact b1
    · rw [c2, show 2 * (j / 2) + 1 = j by omega] at b2; exact b2

/-- On an odd length the last coefficient is lost, so the hypothesis of `merge_split` is needed. -/
theorem merge_split_odd (f : List α) (h : f.length % 2 = 1) : ∃ r, merge (split f).1 (split f).2 = .ok r ∧ r.length = f.length - 1 := by
  obtain ⟨l1, l2⟩ := split_length f
  exact ⟨_, merge_eq _ _ (by rw [l1, l2]), by rw [interleave_length _ _ (by rw [l1, l2]), l1]; omega⟩

/-- **C14**: `split(merge([f0, f1])) = [f0, f1]` for every pair of lists of equal length. -/
theorem split_merge (f0 f1 : List α) (h : f0.length = f1.length) : ∃ f, merge f0 f1 = .ok f ∧ split f = (f0, f1) := by
  refine ⟨_, merge_eq f0 f1 h, ?_⟩
  have hl := interleave_length f0 f1 h
  obtain ⟨l1, l2⟩ := split_length (interleave f0 f1)
  have hi := interleave_get f0 f1 h
  apply Prod.ext
  · apply list_ext_get!
    · rw [l1, hl]; show 2 * f0.length / 2 = f0.length; omega
    · intro j hj
      rw [l1, hl] at hj
      show _ = f0[j]!
      rw [← (hi j (by omega)).1]
      exact map_range_get! _ _ _ (by omega)
  · apply list_ext_get!
    · rw [l2, hl]; show 2 * f0.length / 2 = f1.length; omega
    · intro j hj
      rw [l2, hl] at hj
      show _ = f1[j]!
      rw [← (hi j (by omega)).2]
      exact map_range_get! _ _ _ (by omega)

/-- `merge` raises exactly when the second list is shorter than the first. -/
theorem merge_error_iff (f0 f1 : List α) : (∃ e, merge f0 f1 = .error e) ↔ f1.length < f0.length := by
  unfold merge; split <;> simp [*]

end SplitMerge

example : split [10, 11, 12, 13] = ([10, 12], [11, 13]) := by decide
example : merge [10, 12] [11, 13] = .ok [10, 11, 12, 13] := by decide

/-- `sqnorm` is the sum of the squares of all coefficients. -/
theorem sqnorm_eq (v : List (List Int)) : sqnorm v = (v.flatten.map (· ^ 2)).sum := by
  have inner : ∀ (l : List Int) (r : Int), l.foldl (fun res coef => res + coef ^ 2) r = r + (l.map (· ^ 2)).sum := by
    intro l
    induction l with
    | nil => simp
    | cons a l ih => intro r; simp only [List.foldl_cons, ih, List.map_cons, List.sum_cons]; ring
  have outer : ∀ (l : List (List Int)) (r : Int),
      l.foldl (fun res elt => elt.foldl (fun res coef => res + coef ^ 2) res) r = r + (l.flatten.map (· ^ 2)).sum := by
    intro l
    induction l with
    | nil => simp
    | cons a l ih => intro r; rw [List.foldl_cons, inner, ih, List.flatten_cons, List.map_append, List.sum_append]; ring
  unfold sqnorm; rw [outer]; ring

end Verif.Packing
