import Verif.Tetration.Poly
import Verif.Falcon.Props
import Verif.Contract.Lemmas

/-! The decision of the external verifier. -/

namespace Verif.Tetration

open Verif Verif.Ring Verif.Falcon
open Verif.NTT (addmod mulmod IsProduct cast_addmod cast_mulmod addmod_lt mulmod_lt length_toZ)
open Finset

/-- Natural coefficients as integers. -/
def ints (a : List Nat) : List Int := List.map (fun x : Nat => (x : Int)) a

@[simp] theorem length_ints (a : List Nat) : (ints a).length = a.length := by simp [ints]

theorem zq_ints (a : List Nat) : zq (ints a) = NTT.toZ 12289 a := by
  unfold zq ints NTT.toZ
  rw [List.map_map]
  apply List.map_congr_left
  intro x _
  simp

/-! ## Conversion of the signature -/

theorem conv_small {c : Int} (h : -12289 ≤ c ∧ c ≤ 12289) : conv c ≤ 12289 ∧ (conv c : Int) % 12289 = c % 12289 ∧ Int.bmod (conv c) 12289 = Int.bmod c 12289 := by
  have e : (conv c : Int) = if c < 0 then 12289 + c else c := by
    unfold conv q
    split
    · rename_i h'
      rw [Int.emod_eq_of_lt (by push_cast; omega) (by push_cast; omega), Int.toNat_of_nonneg (by push_cast; omega)]; rfl
    · rw [Int.toNat_of_nonneg (by omega)]
  rw [Contract.bmod_q, Contract.bmod_q, e]
  constructor
  · have : (conv c : Int) ≤ 12289 := by rw [e]; split <;> omega
    omega
  · split <;> constructor <;> omega

theorem conv_big {c : Int} (hc : -2 ^ 255 ≤ c) (h : ¬ (-12289 ≤ c ∧ c ≤ 12289)) : 12289 < conv c := by
  unfold conv q
  split
  · rename_i h'
    have e : ((12289 : Nat) + c) % 2 ^ 256 = 12289 + c + 2 ^ 256 := by
      rw [← Int.add_emod_right, Int.emod_eq_of_lt (by push_cast; omega) (by push_cast; omega)]; rfl
    push_cast at e ⊢
    rw [e]
    omega
  · omega

/-! ## The norm -/

/-- What the normalisation makes of a coefficient. -/
def fold1 (x : Nat) : Nat := if x > 6144 then 12289 - x else x

theorem fold1_sq {x : Nat} (h : x ≤ 12289) : ((fold1 x * fold1 x : Nat) : Int) = Int.bmod x 12289 * Int.bmod x 12289 := by
  have : ((fold1 x : Nat) : Int) = Int.bmod x 12289 ∨ ((fold1 x : Nat) : Int) = - Int.bmod x 12289 := by
    unfold fold1
    rw [Contract.bmod_q]
    split <;> omega
  push_cast
  rcases this with h | h <;> rw [h]; ring

theorem normalize_ok {a : List Nat} (l : a.length = 512) (h : ∀ x ∈ a, x ≤ 12289) : normalize a = .ok ((List.range 512).map fun i => fold1 (a.getD i 0)) := by
  unfold normalize
  apply fill_ok
  intro i hi
  rw [idx_ok (by omega)]
  simp only [bind, Except.bind, fold1, q]
  split
  · rw [csub_ok (h _ (getD_mem (by omega)))]
  · rfl

theorem normalize_panic {a : List Nat} (l : a.length = 512) (h : ∃ x ∈ a, 12289 < x) : normalize a = .error (.revert "panic") := by
  unfold normalize
  apply fill_panic
  · intro i hi
    rw [idx_ok (by omega)]
    simp only [bind, Except.bind, q]
    split
    · by_cases h' : a.getD i 0 ≤ 12289
      · rw [csub_ok h']; right; exact ⟨_, rfl⟩
      · rw [csub_panic (by omega)]; left; rfl
    · right; exact ⟨_, rfl⟩
  · obtain ⟨x, hx, hb⟩ := h
    obtain ⟨i, hi, rfl⟩ := List.getElem_of_mem hx
    have e : a.getD i 0 = a[i] := by rw [List.getD_eq_getElem?_getD, List.getElem?_eq_getElem hi]; rfl
    refine ⟨i, by omega, ?_⟩
    rw [idx_ok hi]
    simp only [bind, Except.bind, q]
    rw [if_pos (by omega), csub_panic (by omega)]

theorem norm_eq {a b : List Nat} (f g : Nat → Nat) (ha : ∀ i < 512, a.getD i 0 = f i) (hb : ∀ i < 512, b.getD i 0 = g i) :
    norm a b = ∑ i ∈ range 512, f i * f i + ∑ i ∈ range 512, g i * g i := by
  have key : ∀ n ≤ 512, (List.range n).foldl (fun acc i => acc + a.getD i 0 * a.getD i 0 + b.getD i 0 * b.getD i 0) 0 = ∑ i ∈ range n, f i * f i + ∑ i ∈ range n, g i * g i := by
    intro n
    induction n with
    | zero => intro _; rfl
    | succ n ih =>
      intro h
      rw [List.range_succ, List.foldl_append, ih (by omega), List.foldl_cons, List.foldl_nil, sum_range_succ, sum_range_succ, ha n (by omega), hb n (by omega)]
      omega
  exact key 512 (le_refl _)

theorem sum_eq_normSq (l : List Int) : ∑ i ∈ range l.length, l.getD i 0 * l.getD i 0 = normSq l := by
  induction l with
  | nil => rfl
  | cons x l ih =>
    rw [List.length_cons, sum_range_succ']
    simp only [List.getD_cons_succ, List.getD_cons_zero, ih, normSq, List.map_cons, List.sum_cons]
    ring

/-- Sum of squares of the normalised entries of a list of words at most `q`. -/
theorem sum_fold1 {a : List Nat} (l : a.length = 512) (h : ∀ x ∈ a, x ≤ 12289) :
    ((∑ i ∈ range 512, fold1 (a.getD i 0) * fold1 (a.getD i 0) : Nat) : Int) = normSq (a.map fun x : Nat => Int.bmod x 12289) := by
  rw [← sum_eq_normSq, List.length_map, l, Nat.cast_sum]
  apply sum_congr rfl
  intro i hi
  have hi : i < 512 := by simpa using hi
  rw [fold1_sq (h _ (getD_mem (by omega)))]
  have : (a.map fun x : Nat => Int.bmod x 12289).getD i 0 = Int.bmod (a.getD i 0) 12289 := by
    rw [List.getD_eq_getElem?_getD, List.getElem?_map, List.getD_eq_getElem?_getD, List.getElem?_eq_getElem (by omega), Option.map_some, Option.getD_some, Option.getD_some]
  rw [this]

/-! ## Difference -/

theorem negZQ_ok {a : List Nat} (h : ∀ x ∈ a, x ≤ 12289) : negZQ a = .ok ((List.range a.length).map fun i => 12289 - a.getD i 0) := by
  unfold negZQ
  apply fill_ok
  intro i hi
  rw [idx_ok hi]
  exact csub_ok (h _ (getD_mem hi))

theorem negZQ_panic {a : List Nat} (h : ∃ x ∈ a, 12289 < x) : negZQ a = .error (.revert "panic") := by
  unfold negZQ
  apply fill_panic
  · intro i hi
    rw [idx_ok hi]
    simp only [bind, Except.bind, q]
    by_cases h' : a.getD i 0 ≤ 12289
    · rw [csub_ok h']; right; exact ⟨_, rfl⟩
    · rw [csub_panic (by omega)]; left; rfl
  · obtain ⟨x, hx, hb⟩ := h
    obtain ⟨i, hi, rfl⟩ := List.getElem_of_mem hx
    have e : a.getD i 0 = a[i] := by rw [List.getD_eq_getElem?_getD, List.getElem?_eq_getElem hi]; rfl
    refine ⟨i, hi, ?_⟩
    rw [idx_ok hi]
    simp only [bind, Except.bind, q]
    rw [csub_panic (by omega)]

theorem addZQ_ok {a b : List Nat} (h : a.length = b.length) : addZQ a b = .ok ((List.range a.length).map fun i => addmod (a.getD i 0) (b.getD i 0) 12289) := by
  unfold addZQ
  rw [if_pos h]
  apply fill_ok
  intro i hi
  rw [idx_ok hi, idx_ok (by omega)]; rfl

theorem subZQ_ok {a b : List Nat} (h : a.length = b.length) (hb : ∀ x ∈ b, x ≤ 12289) :
    ∃ d, subZQ a b = .ok d ∧ d.length = a.length ∧ (∀ x ∈ d, x < 12289) ∧ NTT.toZ 12289 d = List.zipWith (· - ·) (NTT.toZ 12289 a) (NTT.toZ 12289 b) := by
  refine ⟨(List.range a.length).map fun i => addmod (a.getD i 0) (12289 - b.getD i 0) 12289, ?_, by simp, ?_, ?_⟩
  · unfold subZQ
    rw [if_pos h, negZQ_ok hb]
    simp only [bind, Except.bind]
    rw [addZQ_ok (by simp [h])]
    congr 1
    apply List.map_congr_left
    intro i hi
    have hi : i < a.length := by simpa using hi
    rw [getD_map (by omega)]
  · intro x hx
    obtain ⟨i, _, rfl⟩ := List.mem_map.1 hx
    exact addmod_lt q_pos _ _
  · apply List.ext_getElem
    · simp [h]
    intro i h1 h2
    have hi : i < a.length := by simpa using h1
    rw [List.getElem_zipWith]
    have g : ∀ (l : List Nat) (h : i < (NTT.toZ 12289 l).length) (h' : i < l.length), (NTT.toZ 12289 l)[i] = (l[i] : ZMod 12289) := by
      intro l h h'; simp [NTT.toZ]
    rw [g _ _ (by simpa using hi), g _ _ hi, g _ _ (by omega), List.getElem_map, List.getElem_range]
    rw [cast_addmod q_pos, cast_csub (hb _ (getD_mem (by omega))), List.getD_eq_getElem?_getD, List.getD_eq_getElem?_getD, List.getElem?_eq_getElem hi, List.getElem?_eq_getElem (by omega)]
    simp only [Option.getD_some]
    ring

/-! ## Decision -/

theorem zip_sub_add {n : Nat} (a b c : List (ZMod 12289)) (ha : a.length = n) (hb : b.length = n) (hc : c.length = n) :
    List.zipWith (· + ·) a b = c ↔ a = List.zipWith (· - ·) c b := by
  constructor
  · rintro rfl
    apply List.ext_getElem (by simp; omega)
    intro i h1 h2
    simp
  · rintro rfl
    apply List.ext_getElem (by simp; omega)
    intro i h1 h2
    simp

theorem bmod_centre (l : List Nat) : (l.map fun x : Nat => Int.bmod x 12289) = (ints l).map centre := by
  unfold ints
  rw [List.map_map]
  apply List.map_congr_left
  intro x _
  rw [Contract.bmod_q]; rfl

open Classical in
/-- The decision for words at most `q`. -/
theorem decide_ok {hashed p X h : List Nat} {s1 : List Int} (lc : hashed.length = 512) (hp : p.length = 512) (rp : ∀ x ∈ p, x < 12289) (lX : X.length = 512) (rX : ∀ x ∈ X, x ≤ 12289)
    (hh : h.length = 512) (ls : s1.length = 512) (hP : NTT.toZ 12289 p = negMul 512 (zq s1) (zq (ints h))) (hX : (X.map fun x : Nat => Int.bmod x 12289) = s1.map fun c => Int.bmod c 12289) :
    decide' hashed p X = if (∃ s0, IsPreimage 512 (ints h) (ints hashed) s0 s1 ∧ normSq s0 + normSq (s1.map fun c => Int.bmod c 12289) < 34034726) then .ok 0
      else .error (.revert "Signature is invalid") := by
  obtain ⟨d, e, ld, rd, ed⟩ := subZQ_ok (a := hashed) (b := p) (by omega) (fun x hx => (rp x hx).le)
  have key : (∃ s0, IsPreimage 512 (ints h) (ints hashed) s0 s1 ∧ normSq s0 + normSq (s1.map fun c => Int.bmod c 12289) < 34034726) ↔
      normSq (d.map fun x : Nat => Int.bmod x 12289) + normSq (s1.map fun c => Int.bmod c 12289) < 34034726 := by
    have hz : ∀ s0 : List Int, s0.length = 512 → (IsPreimage 512 (ints h) (ints hashed) s0 s1 ↔ zq s0 = zq (ints d)) := by
      intro s0 l0
      unfold IsPreimage
      rw [zq_ints d, ed, ← hP, ← zq_ints hashed, zip_sub_add (n := 512) _ _ _ (by simpa using l0) (by rw [length_toZ, hp]) (by simpa using lc)]
      exact ⟨fun h => h.2.2, fun h => ⟨l0, ls, h⟩⟩
    rw [bmod_centre]
    constructor
    · rintro ⟨s0, h0, hn⟩
      have := normSq_centre_le s0 (ints d) ((hz s0 h0.1).1 h0)
      omega
    · intro hn
      exact ⟨_, (hz ((ints d).map centre) (by simpa using by omega)).2 (zq_centre _), hn⟩
  unfold decide'
  rw [e]
  simp only [bind, Except.bind]
  rw [normalize_ok (by omega) (fun x hx => (rd x hx).le)]
  dsimp only
  rw [normalize_ok lX rX]
  dsimp only
  have hn : ((norm ((List.range 512).map fun i => fold1 (d.getD i 0)) ((List.range 512).map fun i => fold1 (X.getD i 0)) : Nat) : Int) =
      normSq (d.map fun x : Nat => Int.bmod x 12289) + normSq (s1.map fun c => Int.bmod c 12289) := by
    rw [norm_eq _ _ (fun i hi => getD_map hi) (fun i hi => getD_map hi), Nat.cast_add, sum_fold1 (by omega) (fun x hx => (rd x hx).le), sum_fold1 lX rX, hX]
  by_cases hb : norm ((List.range 512).map fun i => fold1 (d.getD i 0)) ((List.range 512).map fun i => fold1 (X.getD i 0)) < 34034726
  · rw [if_pos hb, if_pos (key.2 (by omega))]; rfl
  · rw [if_neg hb, if_neg (fun h => hb (by have := key.1 h; omega))]

theorem decide_panic {hashed p X : List Nat} (lc : hashed.length = 512) (hp : p.length = 512) (rp : ∀ x ∈ p, x < 12289) (lX : X.length = 512) (rX : ∃ x ∈ X, 12289 < x) :
    decide' hashed p X = .error (.revert "panic") := by
  obtain ⟨d, e, ld, rd, ed⟩ := subZQ_ok (a := hashed) (b := p) (by omega) (fun x hx => (rp x hx).le)
  unfold decide'
  rw [e]
  simp only [bind, Except.bind]
  rw [normalize_ok (by omega) (fun x hx => (rd x hx).le)]
  dsimp only
  rw [normalize_panic lX rX]

end Verif.Tetration
