import Verif.CRef.Arith
import Verif.Falcon.NttLemmas
import Mathlib.FieldTheory.Finite.Basic

/-! # C76: the transforms of the C code -/

namespace Verif.CRef

open Verif.NTT Verif.Ring
open Verif.Packing (W getElem!_set)

/-! ## Division -/

theorem cast_montymul (x y : ℕ) (hx : x < 12289) (hy : y < 12289) : ((mqMontymul x y : ℕ) : ZMod 12289) = x * y * 2304 := by
  rw [mqMontymul_eq x y hx hy, ZMod.natCast_mod]; push_cast; rfl

theorem inv_R : (2304 : ZMod 12289) * 65536 = 1 := by decide +kernel

/-- `v` is `y^e` in Montgomery form. -/
def IsMont (y e v : ℕ) : Prop := v < 12289 ∧ (v : ZMod 12289) = (y : ZMod 12289) ^ e * 65536

theorem IsMont.mul {y a b u v : ℕ} (h : IsMont y a u) (h' : IsMont y b v) : IsMont y (a + b) (mqMontymul u v) := by
  refine ⟨mqMontymul_lt _ _ h.1 h'.1, ?_⟩
  rw [cast_montymul _ _ h.1 h'.1, h.2, h'.2, pow_add]
  linear_combination (y : ZMod 12289) ^ a * (y : ZMod 12289) ^ b * 65536 * inv_R

theorem IsMont.mul2 {y a b u v w c : ℕ} (h : IsMont y a u) (h' : IsMont y b v) (e : w = mqMontymul u v) (hc : a + b = c) : IsMont y c w := by
  rw [e, ← hc]; exact h.mul h'

/-- C76: `mq_div_12289` divides: for canonical operands the result is canonical and is `x * y^(q-2)`. -/
theorem mqDiv_eq (x y : ℕ) (hx : x < 12289) (hy : y < 12289) : mqDiv x y < 12289 ∧ ((mqDiv x y : ℕ) : ZMod 12289) = x * (y : ZMod 12289) ^ 12287 := by
  unfold mqDiv
  extract_lets sqr y0 y1 y2 y3 y4 y5 y6 y7 y8 y9 y10 y11 y12 y13 y14 y15 y16 y17 y18
  have e0 : y0 = mqMontymul y 10952 := rfl
  have e1 : y1 = mqMontymul y0 y0 := rfl
  have e2 : y2 = mqMontymul y1 y0 := rfl
  have e3 : y3 = mqMontymul y2 y1 := rfl
  have e4 : y4 = mqMontymul y3 y3 := rfl
  have e5 : y5 = mqMontymul y4 y4 := rfl
  have e6 : y6 = mqMontymul y5 y5 := rfl
  have e7 : y7 = mqMontymul y6 y6 := rfl
  have e8 : y8 = mqMontymul y7 y7 := rfl
  have e9 : y9 = mqMontymul y8 y2 := rfl
  have e10 : y10 = mqMontymul y9 y8 := rfl
  have e11 : y11 = mqMontymul y10 y10 := rfl
  have e12 : y12 = mqMontymul y11 y11 := rfl
  have e13 : y13 = mqMontymul y12 y9 := rfl
  have e14 : y14 = mqMontymul y13 y13 := rfl
  have e15 : y15 = mqMontymul y14 y14 := rfl
  have e16 : y16 = mqMontymul y15 y10 := rfl
  have e17 : y17 = mqMontymul y16 y16 := rfl
  have e18 : y18 = mqMontymul y17 y0 := rfl
  clear_value y0 y1 y2 y3 y4 y5 y6 y7 y8 y9 y10 y11 y12 y13 y14 y15 y16 y17 y18
  have m0 : IsMont y 1 y0 := by
    rw [e0]
    refine ⟨mqMontymul_lt y 10952 hy (by norm_num), ?_⟩
    have h := cast_montymul y 10952 hy (by norm_num)
    have : ((10952 : ℕ) : ZMod 12289) * 2304 = 65536 := by decide +kernel
    rw [mul_assoc, this] at h
    rw [pow_one]
    exact h
  have m1 : IsMont y 2 y1 := IsMont.mul2 m0 m0 e1 (by norm_num)
  have m2 : IsMont y 3 y2 := IsMont.mul2 m1 m0 e2 (by norm_num)
  have m3 : IsMont y 5 y3 := IsMont.mul2 m2 m1 e3 (by norm_num)
  have m4 : IsMont y 10 y4 := IsMont.mul2 m3 m3 e4 (by norm_num)
  have m5 : IsMont y 20 y5 := IsMont.mul2 m4 m4 e5 (by norm_num)
  have m6 : IsMont y 40 y6 := IsMont.mul2 m5 m5 e6 (by norm_num)
  have m7 : IsMont y 80 y7 := IsMont.mul2 m6 m6 e7 (by norm_num)
  have m8 : IsMont y 160 y8 := IsMont.mul2 m7 m7 e8 (by norm_num)
  have m9 : IsMont y 163 y9 := IsMont.mul2 m8 m2 e9 (by norm_num)
  have m10 : IsMont y 323 y10 := IsMont.mul2 m9 m8 e10 (by norm_num)
  have m11 : IsMont y 646 y11 := IsMont.mul2 m10 m10 e11 (by norm_num)
  have m12 : IsMont y 1292 y12 := IsMont.mul2 m11 m11 e12 (by norm_num)
  have m13 : IsMont y 1455 y13 := IsMont.mul2 m12 m9 e13 (by norm_num)
  have m14 : IsMont y 2910 y14 := IsMont.mul2 m13 m13 e14 (by norm_num)
  have m15 : IsMont y 5820 y15 := IsMont.mul2 m14 m14 e15 (by norm_num)
  have m16 : IsMont y 6143 y16 := IsMont.mul2 m15 m10 e16 (by norm_num)
  have m17 : IsMont y 12286 y17 := IsMont.mul2 m16 m16 e17 (by norm_num)
  have m18 : IsMont y 12287 y18 := IsMont.mul2 m17 m0 e18 (by norm_num)
  refine ⟨mqMontymul_lt _ _ m18.1 hx, ?_⟩
  rw [cast_montymul _ _ m18.1 hx, m18.2]
  generalize (y : ZMod 12289) ^ 12287 = z
  linear_combination (x : ZMod 12289) * z * inv_R

/-- C76: the quotient, when the divisor is not zero. -/
theorem mqDiv_mul (x y : ℕ) (hx : x < 12289) (hy : y < 12289) (h0 : 0 < y) : ((mqDiv x y : ℕ) : ZMod 12289) * y = x := by
  rw [(mqDiv_eq x y hx hy).2]
  have hy0 : (y : ZMod 12289) ≠ 0 := by
    intro h
    rw [ZMod.natCast_eq_zero_iff] at h
    exact absurd (Nat.le_of_dvd h0 h) (by omega)
  have := ZMod.pow_card_sub_one_eq_one hy0
  have e : (y : ZMod 12289) ^ 12287 * y = 1 := by rw [← pow_succ]; exact this
  rw [mul_assoc, e, mul_one]

/-! ## Tables -/

/-- The table entry without its Montgomery factor. -/
def psiC (j : ℕ) : ℕ := gmb[j]! * 2304 % 12289
def psiC' (j : ℕ) : ℕ := igmb[j]! * 2304 % 12289

theorem gmb_length : gmb.length = 1024 := by decide +kernel
theorem igmb_length : igmb.length = 1024 := by decide +kernel
theorem gmb_all : gmb.all (· < 12289) = true := by decide +kernel
theorem igmb_all : igmb.all (· < 12289) = true := by decide +kernel
theorem gmb_igmb : List.zipWith (fun a b => a * b % 12289) gmb igmb = List.replicate 1024 10952 := by decide +kernel
theorem gmb_psi : gmb.take 512 = psiRev.map (fun x => x * 65536 % 12289) := by decide +kernel
theorem igmb_psi : igmb.take 512 = psiInvRev.map (fun x => x * 65536 % 12289) := by decide +kernel
theorem gmb_sq : ((gmb.map fun x => x * 2304 % 12289).map fun x => x * x % 12289).drop 1 =
    ((gmb.take 512).flatMap fun x => [x * 2304 % 12289, (12289 - x * 2304 % 12289) % 12289]).drop 1 := by decide +kernel

theorem get_take_map (l p : List ℕ) (f : ℕ → ℕ) (h : l.take 512 = p.map f) (hp : p.length = 512) (j : ℕ) (hj : j < 512) : l[j]! = f p[j]! := by
  have e := congrArg (fun l => l[j]?) h
  rw [List.getElem?_take_of_lt hj, List.getElem?_map] at e
  rw [List.getElem!_eq_getElem?_getD, List.getElem!_eq_getElem?_getD, e, List.getElem?_eq_getElem (by omega)]
  rfl

/-- C76: the tables of the C code: all entries canonical; `GMb[j] * iGMb[j] = 2^32` modulo q; on the first 512 entries they are those of the contracts, times `2^16`. -/
theorem C76_tables : (∀ j < 1024, gmb[j]! < 12289 ∧ igmb[j]! < 12289 ∧ gmb[j]! * igmb[j]! % 12289 = 2 ^ 32 % 12289) ∧
    (∀ j < 512, gmb[j]! = psiRev[j]! * 65536 % 12289 ∧ igmb[j]! = psiInvRev[j]! * 65536 % 12289) := by
  refine ⟨fun j hj => ?_, fun j hj => ⟨get_take_map _ _ _ gmb_psi C34_lengths.1 j hj, get_take_map _ _ _ igmb_psi C34_lengths.2.1 j hj⟩⟩
  have h1 : j < gmb.length := by rw [gmb_length]; exact hj
  have h2 : j < igmb.length := by rw [igmb_length]; exact hj
  rw [getElem!_pos gmb j h1, getElem!_pos igmb j h2]
  refine ⟨of_decide_eq_true (List.all_eq_true.1 gmb_all _ (List.getElem_mem h1)), of_decide_eq_true (List.all_eq_true.1 igmb_all _ (List.getElem_mem h2)), ?_⟩
  have e := congrArg (fun l => l[j]?) gmb_igmb
  rw [List.getElem?_zipWith, List.getElem?_eq_getElem h1, List.getElem?_eq_getElem h2, List.getElem?_replicate, if_pos hj] at e
  exact Option.some.inj e

theorem flatMap_pair (f g : ℕ → ℕ) (l : List ℕ) (j : ℕ) (hj : j / 2 < l.length) :
    (l.flatMap fun x => [f x, g x])[j]? = some (if j % 2 = 0 then f l[j / 2]! else g l[j / 2]!) := by
  induction l generalizing j with
  | nil => simp at hj
  | cons a l ih =>
    rw [List.flatMap_cons]
    match j with
    | 0 => rfl
    | 1 => rfl
    | j + 2 =>
      have e : (j + 2) / 2 = j / 2 + 1 := by omega
      rw [e] at hj ⊢
      rw [show (j + 2) % 2 = j % 2 by omega, List.getElem!_cons_succ]
      exact ih j (by simpa using hj)

theorem psi_sq (j : ℕ) (hj : j < 1024) (h0 : 0 < j) : psiC j * psiC j % 12289 = if j % 2 = 0 then psiC (j / 2) else (12289 - psiC (j / 2)) % 12289 := by
  obtain ⟨i, rfl⟩ : ∃ i, j = i + 1 := ⟨j - 1, by omega⟩
  have e := congrArg (fun l => l[i]?) gmb_sq
  rw [List.getElem?_drop, List.getElem?_drop, Nat.add_comm 1 i, flatMap_pair _ _ _ _ (by rw [List.length_take, gmb_length]; omega), List.getElem?_map, List.getElem?_map,
    List.getElem?_eq_getElem (by rw [gmb_length]; exact hj)] at e
  have e' := Option.some.inj e
  have ht : (gmb.take 512)[(i + 1) / 2]! = gmb[(i + 1) / 2]! := by
    rw [List.getElem!_eq_getElem?_getD, List.getElem!_eq_getElem?_getD, List.getElem?_take_of_lt (by omega)]
  rw [ht] at e'
  unfold psiC
  rw [getElem!_pos gmb (i + 1) (by rw [gmb_length]; exact hj)]
  exact e'

theorem psiC_lt (j : ℕ) : psiC j < 12289 := Nat.mod_lt _ (by decide)
theorem psiC'_lt (j : ℕ) : psiC' j < 12289 := Nat.mod_lt _ (by decide)

theorem unmont (t : ℕ) (ht : t < 12289) : t = t * 2304 % 12289 * 65536 % 12289 := by
  rw [Nat.mod_mul_mod, show t * 2304 * 65536 = t + 12289 * (t * 12287) by ring, Nat.add_mul_mod_self_left, Nat.mod_eq_of_lt ht]

/-- What the proofs about transforms need, for every size the C code supports. -/
theorem lawC (k : ℕ) (hk : k ≤ 10) : Law 12289 k psiC psiC' := by
  have hk' : 2 ^ k ≤ 1024 := le_trans (Nat.pow_le_pow_right (by decide) hk) (by decide)
  refine ⟨?_, fun i h0 hi => ?_, fun i h0 hi => ?_⟩
  · decide +kernel
  · have h := psi_sq i (by omega) h0
    have e : ((psiC i * psiC i % 12289 : ℕ) : ZMod 12289) = (psiC i : ZMod 12289) ^ 2 := by rw [ZMod.natCast_mod]; push_cast; ring
    rw [← e, h]
    unfold node
    split
    · rfl
    · rw [ZMod.natCast_mod, Nat.cast_sub (psiC_lt _).le]
      have : ((12289 : ℕ) : ZMod 12289) = 0 := by decide +kernel
      rw [this, zero_sub]
  · have h := (C76_tables.1 i (by omega)).2.2
    have e : ((gmb[i]! * igmb[i]! % 12289 : ℕ) : ZMod 12289) = gmb[i]! * igmb[i]! := by rw [ZMod.natCast_mod]; push_cast; rfl
    rw [h] at e
    unfold psiC psiC'
    rw [ZMod.natCast_mod, ZMod.natCast_mod]
    push_cast
    have c : ((2 ^ 32 % 12289 : ℕ) : ZMod 12289) * 2304 * 2304 = 1 := by decide +kernel
    rw [e] at c
    linear_combination c

/-! ## The loops are those of the contracts, on canonical residues -/

/-- All words are canonical. -/
def Canon (a : List ℕ) : Prop := ∀ j : ℕ, a[j]! < 12289

theorem canon_set (a : List ℕ) (h : Canon a) (i v : ℕ) (hv : v < 12289) : Canon (a.set i v) := by
  intro j
  rw [getElem!_set]
  split
  · exact hv
  · exact h j

theorem canon_iff (a : List ℕ) : Canon a ↔ ∀ x ∈ a, x < 12289 := by
  constructor
  · intro h x hx
    obtain ⟨i, hi, rfl⟩ := List.getElem_of_mem hx
    have := h i
    rwa [getElem!_pos a i hi] at this
  · intro h j
    by_cases hj : j < a.length
    · rw [getElem!_pos a j hj]; exact h _ (List.getElem_mem hj)
    · rw [List.getElem!_eq_getElem?_getD, List.getElem?_eq_none (by omega)]
      exact by decide

theorem foldl_inv {α β : Type} (f g : α → β → α) (P : α → Prop) (h : ∀ a b, P a → f a b = g a b ∧ P (g a b)) :
    ∀ (l : List β) (a : α), P a → l.foldl f a = l.foldl g a ∧ P (l.foldl g a) := by
  intro l
  induction l with
  | nil => intro a ha; exact ⟨rfl, ha⟩
  | cons b l ih =>
    intro a ha
    obtain ⟨e, h'⟩ := h a b ha
    rw [List.foldl_cons, List.foldl_cons, e]
    exact ih _ h'

theorem u16_of_lt (x : ℕ) (h : x < 12289) : u16 x = x := by unfold u16; omega

theorem set_swap (a : List ℕ) (i j u v : ℕ) (h : i ≠ j) : (a.set i u).set j v = (a.set j v).set i u := by
  rw [List.set_comm _ _ h]

theorem addmod_q (a b : ℕ) : addmod a b 12289 = (a + b) % 12289 := by unfold addmod; rw [if_neg (by norm_num)]
theorem mulmod_q (a b : ℕ) : mulmod a b 12289 = a * b % 12289 := by unfold mulmod; rw [if_neg (by norm_num)]

theorem fwButterfly_eq (s S t : ℕ) (ht : 0 < t) (hs : s = S * 65536 % 12289) (a : List ℕ) (h : Canon a) (j : ℕ) :
    fwButterfly s t a j = fwBfly 12289 S t a j ∧ Canon (fwBfly 12289 S t a j) := by
  have q0 : (0 : ℕ) < 12289 := by norm_num
  have hm : mqMontymul a[j + t]! s = mulmod a[j + t]! S 12289 := by
    rw [mqMontymul_table _ S s (h _) hs, mulmod_q]
  have hv : mulmod a[j + t]! S 12289 < 12289 := mulmod_lt q0 _ _
  have hw : subw 12289 (mulmod a[j + t]! S 12289) = 12289 - mulmod a[j + t]! S 12289 := subw_eq 12289 _ qF_lt hv.le
  have hj : j ≠ j + t := by omega
  unfold fwButterfly fwBfly
  dsimp only
  rw [hm, hw]
  generalize mulmod a[j + t]! S 12289 = v at hv
  rw [mqAdd_eq _ _ (h _) hv, mqSub_eq _ _ (h _) hv, u16_of_lt _ (Nat.mod_lt _ q0), u16_of_lt _ (Nat.mod_lt _ q0), addmod_q, addmod_q]
  exact ⟨set_swap _ _ _ _ _ hj, canon_set _ (canon_set _ h _ _ (Nat.mod_lt _ q0)) _ _ (Nat.mod_lt _ q0)⟩

theorem invButterfly_eq (s S t : ℕ) (ht : 0 < t) (hs : s = S * 65536 % 12289) (a : List ℕ) (h : Canon a) (j : ℕ) :
    invButterfly s t a j = invBfly 12289 S t a j ∧ Canon (invBfly 12289 S t a j) := by
  have q0 : (0 : ℕ) < 12289 := by norm_num
  have hw : subw 12289 a[j + t]! = 12289 - a[j + t]! := subw_eq 12289 _ qF_lt (h _).le
  have hj : j ≠ j + t := by omega
  unfold invButterfly invBfly
  dsimp only
  rw [hw]
  rw [mqAdd_eq _ _ (h _) (h _), mqSub_eq _ _ (h _) (h _), mqMontymul_table _ S s (Nat.mod_lt _ q0) hs, u16_of_lt _ (Nat.mod_lt _ q0), u16_of_lt _ (Nat.mod_lt _ q0),
    addmod_q, addmod_q, mulmod_q]
  exact ⟨set_swap _ _ _ _ _ hj, canon_set _ (canon_set _ h _ _ (Nat.mod_lt _ q0)) _ _ (Nat.mod_lt _ q0)⟩

theorem fwInner_eq (s S t j1 : ℕ) (hs : s = S * 65536 % 12289) (a : List ℕ) (h : Canon a) :
    fwInner s t j1 a = fwGroup 12289 S t j1 a ∧ Canon (fwGroup 12289 S t j1 a) := by
  rcases Nat.eq_zero_or_pos t with rfl | ht
  · unfold fwInner fwGroup; rw [List.range_zero, List.foldl_nil, List.foldl_nil]; exact ⟨rfl, h⟩
  · unfold fwInner fwGroup
    exact foldl_inv (fun a k => fwButterfly s t a (j1 + k)) (fun a k => fwBfly 12289 S t a (j1 + k)) Canon (fun a k ha => fwButterfly_eq s S t ht hs a ha (j1 + k)) (List.range t) a h

theorem invInner_eq (s S t j1 : ℕ) (hs : s = S * 65536 % 12289) (a : List ℕ) (h : Canon a) :
    invInner s t j1 a = invGroup 12289 S t j1 a ∧ Canon (invGroup 12289 S t j1 a) := by
  rcases Nat.eq_zero_or_pos t with rfl | ht
  · unfold invInner invGroup; rw [List.range_zero, List.foldl_nil, List.foldl_nil]; exact ⟨rfl, h⟩
  · unfold invInner invGroup
    exact foldl_inv (fun a k => invButterfly s t a (j1 + k)) (fun a k => invBfly 12289 S t a (j1 + k)) Canon (fun a k ha => invButterfly_eq s S t ht hs a ha (j1 + k)) (List.range t) a h

/-- A table of Montgomery factors. -/
theorem gmb_eq (j : ℕ) : gmb[j]! = psiC j * 65536 % 12289 := by
  by_cases h : j < 1024
  · exact unmont _ (C76_tables.1 j h).1
  · have : gmb[j]! = 0 := by
      rw [List.getElem!_eq_getElem?_getD, List.getElem?_eq_none (by rw [gmb_length]; omega)]; rfl
    unfold psiC; rw [this]

theorem igmb_eq (j : ℕ) : igmb[j]! = psiC' j * 65536 % 12289 := by
  by_cases h : j < 1024
  · exact unmont _ (C76_tables.1 j h).2.1
  · have : igmb[j]! = 0 := by
      rw [List.getElem!_eq_getElem?_getD, List.getElem?_eq_none (by rw [igmb_length]; omega)]; rfl
    unfold psiC'; rw [this]

theorem fwMiddle_eq (m t : ℕ) (a : List ℕ) (h : Canon a) :
    fwMiddle m (2 * t) a = fwStage psiC 12289 m t a ∧ Canon (fwStage psiC 12289 m t a) := by
  unfold fwMiddle fwStage
  have key : ∀ M, (List.range M).foldl (fun (st : ℕ × List ℕ) i => (st.1 + 2 * t, fwInner gmb[m + i]! (2 * t / 2) st.1 st.2)) (0, a) =
      (2 * M * t, (List.range M).foldl (fun a i => fwGroup 12289 (psiC (m + i)) t (2 * i * t) a) a) ∧
      Canon ((List.range M).foldl (fun a i => fwGroup 12289 (psiC (m + i)) t (2 * i * t) a) a) := by
    intro M
    induction M with
    | zero => exact ⟨by simp, h⟩
    | succ M ih =>
      rw [List.range_succ, List.foldl_append, ih.1, List.foldl_append, List.foldl_cons, List.foldl_nil, List.foldl_cons, List.foldl_nil]
      obtain ⟨e1, e2⟩ := fwInner_eq gmb[m + M]! (psiC (m + M)) t (2 * M * t) (gmb_eq _) _ ih.2
      refine ⟨?_, e2⟩
      dsimp only
      rw [Nat.mul_div_cancel_left t (by decide : 0 < 2), e1]
      congr 1; ring
  exact ⟨by rw [(key m).1], (key m).2⟩

theorem invMiddle_eq (hm t : ℕ) (a : List ℕ) (h : Canon a) :
    invMiddle hm t a = invStage psiC' 12289 hm t a ∧ Canon (invStage psiC' 12289 hm t a) := by
  unfold invMiddle invStage
  have key := foldl_inv (fun (st : ℕ × List ℕ) i => (st.1 + 2 * t, invInner igmb[hm + i]! t st.1 st.2))
    (fun (st : ℕ × List ℕ) i => (st.1 + 2 * t, invGroup 12289 (psiC' (hm + i)) t st.1 st.2)) (fun st => Canon st.2)
    (fun st i hst => by
      obtain ⟨e1, e2⟩ := invInner_eq igmb[hm + i]! (psiC' (hm + i)) t st.1 (igmb_eq _) st.2 hst
      exact ⟨by rw [e1], e2⟩) (List.range hm) (0, a) h
  exact ⟨by rw [key.1], key.2⟩

theorem fwOuter_eq (n : ℕ) : ∀ (d fuel m : ℕ) (a : List ℕ), m * 2 ^ d = n → Canon a →
    fwOuter n fuel (2 ^ d) m a = fwLoop psiC 12289 n fuel (2 ^ d) m a ∧ Canon (fwLoop psiC 12289 n fuel (2 ^ d) m a) := by
  intro d fuel
  induction fuel generalizing d with
  | zero => intro m a _ h; exact ⟨rfl, h⟩
  | succ fuel ih =>
    intro m a hn h
    unfold fwOuter fwLoop
    by_cases hm : m < n
    · rw [if_pos hm, if_pos hm]
      cases d with
      | zero => omega
      | succ d =>
        obtain ⟨e1, e2⟩ := fwMiddle_eq m (2 ^ d) a h
        rw [show 2 ^ (d + 1) = 2 * 2 ^ d by ring, Nat.mul_div_cancel_left _ (by decide : 0 < 2), e1]
        exact ih d (2 * m) _ (by rw [← hn]; ring) e2
    · rw [if_neg hm, if_neg hm]; exact ⟨rfl, h⟩

theorem invOuter_eq : ∀ (fuel t m : ℕ) (a : List ℕ), Canon a →
    invOuter fuel t m a = invLoop psiC' 12289 fuel t m a ∧ Canon (invLoop psiC' 12289 fuel t m a) := by
  intro fuel
  induction fuel with
  | zero => intro t m a h; exact ⟨rfl, h⟩
  | succ fuel ih =>
    intro t m a h
    unfold invOuter invLoop
    by_cases hm : m > 1
    · rw [if_pos hm, if_pos hm]
      obtain ⟨e1, e2⟩ := invMiddle_eq (m / 2) t a h
      rw [e1]
      exact ih _ _ _ e2
    · rw [if_neg hm, if_neg hm]; exact ⟨rfl, h⟩

/-- `mq_NTT` on canonical residues, as the loop of the contracts with the C table. -/
theorem mqNTT_eq (k : ℕ) (a : List ℕ) (h : Canon a) : mqNTT k a = nttFw psiC 12289 (2 ^ k) a :=
  (fwOuter_eq (2 ^ k) k (2 ^ k) 1 a (by omega) h).1

/-- `1/n` as `mq_iNTT` computes it. -/
def scaleC (k : ℕ) : ℕ := invScale k * 2304 % 12289

theorem invScale_lt : ∀ k, invScale k < 12289 := by
  intro k
  induction k with
  | zero => decide
  | succ k ih => exact (mqRshift1_eq _ ih).1

theorem scaleC_inv : ∀ k, ((2 ^ k : ℕ) : ZMod 12289) * scaleC k = 1 := by
  intro k
  have h2 : ((2 ^ k : ℕ) : ZMod 12289) * invScale k = 65536 := by
    induction k with
    | zero => decide +kernel
    | succ k ih =>
      have h := (mqRshift1_eq _ (invScale_lt k)).2
      have e : ((2 * mqRshift1 (invScale k) % 12289 : ℕ) : ZMod 12289) = 2 * mqRshift1 (invScale k) := by rw [ZMod.natCast_mod]; push_cast; rfl
      rw [h] at e
      have e' : invScale (k + 1) = mqRshift1 (invScale k) := rfl
      rw [← ih, e, e', pow_succ]
      push_cast
      ring
  unfold scaleC
  rw [ZMod.natCast_mod]
  push_cast at h2 ⊢
  rw [← mul_assoc, h2, mul_comm]
  exact inv_R

/-- `mq_iNTT` on canonical residues. -/
theorem mqINTT_eq (k : ℕ) (a : List ℕ) (hl : a.length = 2 ^ k) (h : Canon a) : mqINTT k a = nttInv psiC' 12289 (scaleC k) (2 ^ k) a := by
  obtain ⟨e1, e2⟩ := invOuter_eq (2 ^ k) 1 (2 ^ k) a h
  unfold mqINTT nttInv
  dsimp only
  rw [e1]
  have hlen : (invLoop psiC' 12289 (2 ^ k) 1 (2 ^ k) a).length = 2 ^ k := by
    have := (nttInv_spec psiC' (q := 12289) (by norm_num) qF_lt 1 k a hl (fun x _ => (h x).le)).1
    unfold nttInv at this
    rwa [List.length_map] at this
  apply List.ext_getElem
  · rw [List.length_map, List.length_map, List.length_range, hlen]
  · intro i h1 h2
    rw [List.length_map, List.length_range] at h1
    rw [List.getElem_map, List.getElem_map, List.getElem_range, getElem!_pos _ i (by omega)]
    have hi : (invLoop psiC' 12289 (2 ^ k) 1 (2 ^ k) a)[i]'(by omega) < 12289 := by
      have := e2 i
      rwa [getElem!_pos _ i (by omega)] at this
    rw [mqMontymul_table _ (scaleC k) _ hi (unmont _ (invScale_lt k)), u16_of_lt _ (Nat.mod_lt _ (by decide))]
    rfl

end Verif.CRef
