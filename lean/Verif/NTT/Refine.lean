import Verif.NTT.Model
import Verif.NTT.Fun
import Verif.Packing.Lemmas
import Mathlib.Data.ZMod.Basic

/-! The list loops of the contracts compute the butterfly stages. -/

namespace Verif.NTT

open Verif.Packing (W getElem!_set)

/-- a generic butterfly: `f` for the upper, `g` for the lower output -/
def bfly2 (f g : Nat → Nat → Nat) (t : Nat) (a : List Nat) (j : Nat) : List Nat :=
  (a.set (j + t) (f a[j]! a[j + t]!)).set j (g a[j]! a[j + t]!)

theorem group2 (f g : Nat → Nat → Nat) (t j1 : Nat) (a : List Nat) (h : j1 + 2 * t ≤ a.length) : ∀ K ≤ t,
    ((List.range K).foldl (fun a k => bfly2 f g t a (j1 + k)) a).length = a.length ∧
    ∀ x, ((List.range K).foldl (fun a k => bfly2 f g t a (j1 + k)) a)[x]! =
      if j1 ≤ x ∧ x < j1 + K then g a[x]! a[x + t]! else
      if j1 + t ≤ x ∧ x < j1 + t + K then f a[x - t]! a[x]! else a[x]! := by
  intro K
  induction K with
  | zero =>
    intro _
    refine ⟨rfl, fun x => ?_⟩
    rw [if_neg (by omega), if_neg (by omega)]; rfl
  | succ K ih =>
    intro hK
    obtain ⟨ih1, ih2⟩ := ih (by omega)
    rw [List.range_succ, List.foldl_append, List.foldl_cons, List.foldl_nil]
    generalize hr : (List.range K).foldl (fun a k => bfly2 f g t a (j1 + k)) a = r at ih1 ih2 ⊢
    have e1 : r[j1 + K]! = a[j1 + K]! := by rw [ih2, if_neg (by omega), if_neg (by omega)]
    have e2 : r[j1 + K + t]! = a[j1 + K + t]! := by rw [ih2, if_neg (by omega), if_neg (by omega)]
    unfold bfly2
    refine ⟨by rw [List.length_set, List.length_set, ih1], fun x => ?_⟩
    rw [getElem!_set, getElem!_set, List.length_set, ih1, e1, e2]
    by_cases h1 : j1 + K = x
    · subst h1
      rw [if_pos ⟨rfl, by omega⟩, if_pos (by omega)]
    · rw [if_neg (by omega)]
      by_cases h2 : j1 + K + t = x
      · subst h2
        rw [if_pos ⟨rfl, by omega⟩, if_neg (by omega), if_pos (by omega), Nat.add_sub_cancel]
      · rw [if_neg (by omega), ih2]
        congr 1
        · simp only [eq_iff_iff]; omega
        · congr 1
          simp only [eq_iff_iff]; omega

theorem stage2 (f g : Nat → Nat → Nat → Nat) (t : Nat) (a : List Nat) (ht : 0 < t) : ∀ M, 2 * M * t ≤ a.length →
    ((List.range M).foldl (fun a i => (List.range t).foldl (fun a k => bfly2 (f i) (g i) t a (2 * i * t + k)) a) a).length = a.length ∧
    ∀ x, ((List.range M).foldl (fun a i => (List.range t).foldl (fun a k => bfly2 (f i) (g i) t a (2 * i * t + k)) a) a)[x]! =
      if x < M * (2 * t) then
        (if x % (2 * t) < t then g (x / (2 * t)) a[x]! a[x + t]! else f (x / (2 * t)) a[x - t]! a[x]!) else a[x]! := by
  intro M
  induction M with
  | zero =>
    intro _
    exact ⟨rfl, fun x => by rw [if_neg (by omega)]; rfl⟩
  | succ M ih =>
    intro hM
    have e0 : 2 * (M + 1) * t = 2 * M * t + 2 * t := by ring
    have e1 : M * (2 * t) = 2 * M * t := by ring
    have e2 : (M + 1) * (2 * t) = 2 * M * t + 2 * t := by ring
    obtain ⟨ih1, ih2⟩ := ih (by omega)
    rw [List.range_succ, List.foldl_append, List.foldl_cons, List.foldl_nil]
    generalize hr : (List.range M).foldl (fun a i => (List.range t).foldl (fun a k => bfly2 (f i) (g i) t a (2 * i * t + k)) a) a = r at ih1 ih2 ⊢
    obtain ⟨h1, h2⟩ := group2 (f M) (g M) t (2 * M * t) r (by omega) t le_rfl
    refine ⟨by rw [h1, ih1], fun x => ?_⟩
    rw [h2, e2]
    rw [e1] at ih2
    by_cases hlo : x < 2 * M * t
    · rw [if_neg (by omega), if_neg (by omega), ih2, if_pos hlo, if_pos (show x < 2 * M * t + 2 * t by omega)]
    · by_cases hx1 : x < 2 * M * t + t
      · obtain ⟨d1, d2⟩ := divmod_add t M (x - 2 * M * t) (by omega)
        rw [e1, show 2 * M * t + (x - 2 * M * t) = x by omega] at d1 d2
        rw [if_pos (by omega), if_pos (by omega), d1, d2, if_pos (by omega), ih2, if_neg (by omega), ih2, if_neg (by omega)]
      · rw [if_neg (by omega)]
        by_cases hx2 : x < 2 * M * t + t + t
        · obtain ⟨d1, d2⟩ := divmod_add t M (x - 2 * M * t) (by omega)
          rw [e1, show 2 * M * t + (x - 2 * M * t) = x by omega] at d1 d2
          rw [if_pos (by omega), if_pos (by omega), d1, d2, if_neg (by omega), ih2, if_neg (by omega), ih2, if_neg (by omega)]
        · rw [if_neg (by omega), if_neg (by omega), ih2, if_neg (by omega)]

theorem invStage_eq (psi : Nat → Nat) (q h t : Nat) (a : List Nat) :
    invStage psi q h t a = (List.range h).foldl (fun a i => invGroup q (psi (h + i)) t (2 * i * t) a) a := by
  unfold invStage
  have : ∀ M, (List.range M).foldl (fun (st : Nat × List Nat) i => (st.1 + 2 * t, invGroup q (psi (h + i)) t st.1 st.2)) (0, a) =
      (2 * M * t, (List.range M).foldl (fun a i => invGroup q (psi (h + i)) t (2 * i * t) a) a) := by
    intro M
    induction M with
    | zero => simp
    | succ M ih =>
      rw [List.range_succ, List.foldl_append, ih, List.foldl_append, List.foldl_cons, List.foldl_nil, List.foldl_cons, List.foldl_nil]
      congr 1; ring
  rw [this]

section
variable (q : Nat)

/-- the residues of an array of words -/
def res (a : List Nat) : Nat → ZMod q := fun x => (a[x]! : ZMod q)

theorem subw_eq (V : Nat) (hq : q < W) (h : V ≤ q) : subw q V = q - V := by
  unfold subw
  rw [Nat.mod_eq_of_lt (show V < W by omega), show q + (W - V) = (q - V) + W by omega, Nat.add_mod_right, Nat.mod_eq_of_lt (by omega)]

theorem cast_subw (V : Nat) (hq : q < W) (h : V ≤ q) : ((subw q V : Nat) : ZMod q) = - (V : ZMod q) := by
  rw [subw_eq q V hq h, Nat.cast_sub h]; simp

variable {q}

theorem cast_addmod (h0 : 0 < q) (a b : Nat) : ((addmod a b q : Nat) : ZMod q) = a + b := by
  unfold addmod; rw [if_neg (by omega), ZMod.natCast_mod, Nat.cast_add]

theorem cast_mulmod (h0 : 0 < q) (a b : Nat) : ((mulmod a b q : Nat) : ZMod q) = a * b := by
  unfold mulmod; rw [if_neg (by omega), ZMod.natCast_mod, Nat.cast_mul]

theorem addmod_lt (h0 : 0 < q) (a b : Nat) : addmod a b q < q := by
  unfold addmod; rw [if_neg (by omega)]; exact Nat.mod_lt _ h0

theorem mulmod_lt (h0 : 0 < q) (a b : Nat) : mulmod a b q < q := by
  unfold mulmod; rw [if_neg (by omega)]; exact Nat.mod_lt _ h0

theorem fwStage_spec (psi : Nat → Nat) (h0 : 0 < q) (hq : q < W) (m t : Nat) (ht : 0 < t) (a : List Nat) (ha : a.length = m * (2 * t)) :
    (fwStage psi q m t a).length = a.length ∧ (∀ x < m * (2 * t), (fwStage psi q m t a)[x]! < q) ∧
    ∀ x < m * (2 * t), res q (fwStage psi q m t a) x = Fst (fun i => (psi (m + i) : ZMod q)) t (res q a) x := by
  obtain ⟨h1, h2⟩ := stage2 (fun i U V => addmod U (subw q (mulmod V (psi (m + i)) q)) q)
    (fun i U V => addmod U (mulmod V (psi (m + i)) q) q) t a ht m (by rw [ha]; apply le_of_eq; ring)
  refine ⟨h1, fun x hx => ?_, fun x hx => ?_⟩
  · have := h2 x
    rw [if_pos hx] at this
    show ((List.range m).foldl _ a)[x]! < q
    refine lt_of_eq_of_lt this ?_
    split <;> exact addmod_lt h0 _ _
  · have := h2 x
    rw [if_pos hx] at this
    unfold res
    rw [show (fwStage psi q m t a)[x]! = _ from this]
    unfold Fst
    split
    · rw [cast_addmod h0, cast_mulmod h0]; ring
    · rw [cast_addmod h0, cast_subw q _ hq (mulmod_lt h0 _ _).le, cast_mulmod h0]; ring

theorem invStage_spec (psi : Nat → Nat) (h0 : 0 < q) (hq : q < W) (m t : Nat) (ht : 0 < t) (a : List Nat) (ha : a.length = m * (2 * t))
    (hr : ∀ x < m * (2 * t), a[x]! ≤ q) :
    (invStage psi q m t a).length = a.length ∧ (∀ x < m * (2 * t), (invStage psi q m t a)[x]! < q) ∧
    ∀ x < m * (2 * t), res q (invStage psi q m t a) x = Ist (fun i => (psi (m + i) : ZMod q)) t (res q a) x := by
  obtain ⟨h1, h2⟩ := stage2 (fun i U V => mulmod (addmod U (subw q V) q) (psi (m + i)) q)
    (fun i U V => addmod U V q) t a ht m (by rw [ha]; apply le_of_eq; ring)
  rw [invStage_eq]
  refine ⟨h1, fun x hx => ?_, fun x hx => ?_⟩
  · have := h2 x
    rw [if_pos hx] at this
    refine lt_of_eq_of_lt this ?_
    split
    · exact addmod_lt h0 _ _
    · exact mulmod_lt h0 _ _
  · have := h2 x
    rw [if_pos hx] at this
    unfold res
    rw [show ((List.range m).foldl (fun a i => invGroup q (psi (m + i)) t (2 * i * t) a) a)[x]! = _ from this]
    unfold Ist
    split
    · rw [cast_addmod h0]
    · rw [cast_mulmod h0, cast_addmod h0, cast_subw q _ hq (hr x hx)]; ring

theorem fwLoop_spec (psi : Nat → Nat) (h0 : 0 < q) (hq : q < W) (n : Nat) : ∀ (d fuel m : Nat) (a : List Nat),
    d ≤ fuel → m * 2 ^ d = n → a.length = n → 0 < m →
    (fwLoop psi q n fuel (2 ^ d) m a).length = n ∧
    ((∀ x < n, a[x]! < q) ∨ 0 < d → ∀ x < n, (fwLoop psi q n fuel (2 ^ d) m a)[x]! < q) ∧
    ∀ x < n, res q (fwLoop psi q n fuel (2 ^ d) m a) x = FL (fun i => (psi i : ZMod q)) d m (res q a) x := by
  intro d
  induction d with
  | zero =>
    intro fuel m a _ hm ha _
    have : ∀ fuel, fwLoop psi q n fuel (2 ^ 0) m a = a := by
      intro fuel
      cases fuel with
      | zero => rfl
      | succ f => show (if m < n then _ else a) = a
                  rw [if_neg (by simp at hm; omega)]
    rw [this]
    exact ⟨ha, fun h => by rcases h with h | h; exacts [h, absurd h (by omega)], fun x _ => rfl⟩
  | succ d ih =>
    intro fuel m a hf hm ha hm0
    obtain ⟨f, rfl⟩ : ∃ f, fuel = f + 1 := ⟨fuel - 1, by omega⟩
    obtain ⟨s1, s2⟩ := size_eq d m
    have hp : 0 < 2 ^ d := Nat.two_pow_pos d
    have hlt : m < n := by
      rw [← hm, pow_succ]
      have : m * 1 ≤ m * 2 ^ d := Nat.mul_le_mul_left _ hp
      have e : m * (2 ^ d * 2) = 2 * (m * 2 ^ d) := by ring
      omega
    have e : fwLoop psi q n (f + 1) (2 ^ (d + 1)) m a = fwLoop psi q n f (2 ^ d) (2 * m) (fwStage psi q m (2 ^ d) a) := by
      show (if m < n then _ else a) = _
      rw [if_pos hlt, show 2 ^ (d + 1) / 2 = 2 ^ d by rw [pow_succ]; omega]
    rw [e]
    obtain ⟨g1, g2, g3⟩ := fwStage_spec psi h0 hq m (2 ^ d) hp a (by omega)
    obtain ⟨i1, i2, i3⟩ := ih f (2 * m) (fwStage psi q m (2 ^ d) a) (by omega) (by omega) (by omega) (by omega)
    refine ⟨i1, fun _ => i2 (Or.inl fun x hx => g2 x (by omega)), fun x hx => ?_⟩
    rw [i3 x hx]
    exact FL_congr _ d (2 * m) _ _ (fun y hy => g3 y (by omega)) x (by omega)

theorem invLoop_spec (psi : Nat → Nat) (h0 : 0 < q) (hq : q < W) (k : Nat) (b : Nat → ZMod q) : ∀ (s e fuel : Nat) (a : List Nat),
    s ≤ fuel → s + e = k → a.length = 2 ^ k → (∀ x < 2 ^ k, a[x]! ≤ q) →
    (∀ x < 2 ^ k, res q a x = IL (fun i => (psi i : ZMod q)) e (2 ^ s) b x) →
    (invLoop psi q fuel (2 ^ e) (2 ^ s) a).length = 2 ^ k ∧
    ∀ x < 2 ^ k, res q (invLoop psi q fuel (2 ^ e) (2 ^ s) a) x = IL (fun i => (psi i : ZMod q)) k 1 b x := by
  intro s
  induction s with
  | zero =>
    intro e fuel a _ hk ha _ hb
    have he : e = k := by omega
    subst he
    have : invLoop psi q fuel (2 ^ e) (2 ^ 0) a = a := by
      cases fuel with
      | zero => rfl
      | succ f => show (if 2 ^ 0 > 1 then _ else a) = a
                  rw [if_neg (by decide)]
    rw [this]
    exact ⟨ha, hb⟩
  | succ s ih =>
    intro e fuel a hf hk ha hr hb
    obtain ⟨f, rfl⟩ : ∃ f, fuel = f + 1 := ⟨fuel - 1, by omega⟩
    have hs : 0 < 2 ^ s := Nat.two_pow_pos s
    have he : 0 < 2 ^ e := Nat.two_pow_pos e
    have hsz : 2 ^ s * (2 * 2 ^ e) = 2 ^ k := by rw [← pow_succ', ← pow_add]; congr 1; omega
    have e1 : invLoop psi q (f + 1) (2 ^ e) (2 ^ (s + 1)) a = invLoop psi q f (2 ^ (e + 1)) (2 ^ s) (invStage psi q (2 ^ s) (2 ^ e) a) := by
      show (if 2 ^ (s + 1) > 1 then _ else a) = _
      rw [if_pos (by rw [pow_succ]; omega), show 2 ^ (s + 1) / 2 = 2 ^ s by rw [pow_succ]; omega, pow_succ' 2 e]
    rw [e1]
    obtain ⟨g1, g2, g3⟩ := invStage_spec psi h0 hq (2 ^ s) (2 ^ e) he a (by omega) (fun x hx => hr x (by omega))
    apply ih (e + 1) f _ (by omega) (by omega) (by omega) (fun x hx => (g2 x (by omega)).le)
    intro x hx
    rw [g3 x (by omega)]
    show _ = Ist _ (2 ^ e) (IL _ e (2 * 2 ^ s) b) x
    rw [← pow_succ' 2 s]
    exact Ist_congr _ (2 ^ s) _ _ _ (fun y hy => hb y (by omega)) x (by omega)

theorem nttFw_spec (psi : Nat → Nat) (h0 : 0 < q) (hq : q < W) (k : Nat) (a : List Nat) (ha : a.length = 2 ^ k) :
    (nttFw psi q (2 ^ k) a).length = 2 ^ k ∧ (0 < k → ∀ x < 2 ^ k, (nttFw psi q (2 ^ k) a)[x]! < q) ∧
    ∀ x < 2 ^ k, res q (nttFw psi q (2 ^ k) a) x = FL (fun i => (psi i : ZMod q)) k 1 (res q a) x := by
  obtain ⟨h1, h2, h3⟩ := fwLoop_spec psi h0 hq (2 ^ k) k (2 ^ k) 1 a Nat.lt_two_pow_self.le (by omega) ha (by omega)
  exact ⟨h1, fun h => h2 (Or.inr h), h3⟩

theorem nttInv_spec (psi : Nat → Nat) (h0 : 0 < q) (hq : q < W) (nm1 k : Nat) (a : List Nat) (ha : a.length = 2 ^ k)
    (hr : ∀ x < 2 ^ k, a[x]! ≤ q) :
    (nttInv psi q nm1 (2 ^ k) a).length = 2 ^ k ∧ (∀ x < 2 ^ k, (nttInv psi q nm1 (2 ^ k) a)[x]! < q) ∧
    ∀ x < 2 ^ k, res q (nttInv psi q nm1 (2 ^ k) a) x = IL (fun i => (psi i : ZMod q)) k 1 (res q a) x * nm1 := by
  obtain ⟨h1, h2⟩ := invLoop_spec psi h0 hq k (res q a) k 0 (2 ^ k) a Nat.lt_two_pow_self.le (by omega) ha hr (fun x _ => rfl)
  rw [pow_zero] at h1 h2
  have hg : ∀ x < 2 ^ k, (nttInv psi q nm1 (2 ^ k) a)[x]! = mulmod (invLoop psi q (2 ^ k) 1 (2 ^ k) a)[x]! nm1 q := by
    intro x hx
    unfold nttInv
    rw [List.getElem!_eq_getElem?_getD, List.getElem?_map, List.getElem!_eq_getElem?_getD, List.getElem?_eq_getElem (by omega)]
    rfl
  refine ⟨by unfold nttInv; rw [List.length_map, h1], fun x hx => ?_, fun x hx => ?_⟩
  · rw [hg x hx]; exact mulmod_lt h0 _ _
  · unfold res
    rw [hg x hx, cast_mulmod h0]
    exact congrArg (· * (nm1 : ZMod q)) (h2 x hx)

end

end Verif.NTT
