import Verif.Contract.Model
import Verif.Contract.Spec
import Verif.NTT.Props
import Verif.Falcon.NttLemmas

/-! Helper lemmas for the on-chain verifiers. -/

namespace Verif.Contract

open Verif Verif.Packing Verif.NTT Verif.Ring Verif.Falcon

theorem W_big : 2 ^ 64 < W := by unfold W; norm_num

theorem bmod_q (x : ℤ) : Int.bmod x 12289 = (x + 6144) % 12289 - 6144 := by
  rw [Int.bmod_def]
  split <;> omega

theorem subw_q (x : ℕ) (h : x ≤ 12289) : subw 12289 x = 12289 - x := by
  have hW := W_big
  unfold subw
  rw [Nat.mod_eq_of_lt (a := x) (by omega), show 12289 + (W - x) = (12289 - x) + W by omega, Nat.add_mod_right, Nat.mod_eq_of_lt (by omega)]

theorem foldCoef_le (x : ℕ) (h : x < 12289) : foldCoef x = if x > 6144 then 12289 - x else x := by
  have hW := W_big
  unfold foldCoef gtw qs1 qF addw mulw
  split
  · rw [subw_q x (by omega), show subw 1 1 = 0 by unfold subw; rw [Nat.mod_eq_of_lt (a := 1) (by omega), show 1 + (W - 1) = W by omega, Nat.mod_self]]
    rw [one_mul, zero_mul, Nat.zero_mod, add_zero, Nat.mod_mod, Nat.mod_eq_of_lt (by omega)]
  · rw [show subw 1 0 = 1 by unfold subw; rw [Nat.zero_mod, Nat.sub_zero, Nat.add_mod_right, Nat.mod_eq_of_lt (by omega)]]
    rw [one_mul, zero_mul, Nat.zero_mod, zero_add, Nat.mod_mod, Nat.mod_eq_of_lt (by omega)]

theorem foldCoef_sq (x : ℕ) (h : x < 12289) : ((foldCoef x : ℕ) : ℤ) * foldCoef x = Int.bmod x 12289 * Int.bmod x 12289 := by
  rw [foldCoef_le x h, bmod_q]
  split
  · rw [show ((x : ℤ) + 6144) % 12289 = x + 6144 - 12289 by omega, Nat.cast_sub (by omega)]
    push_cast; ring
  · rw [show ((x : ℤ) + 6144) % 12289 = x + 6144 by omega]; ring

theorem foldCoef_bound (x : ℕ) (h : x < 12289) : foldCoef x ≤ 6144 := by
  rw [foldCoef_le x h]; split <;> omega

theorem addmod_diff (x y : ℕ) (h : y < 12289) : addmod x (subw 12289 y) 12289 < 12289 ∧
    Int.bmod ((addmod x (subw 12289 y) 12289 : ℕ) : ℤ) 12289 = Int.bmod ((x : ℤ) - y) 12289 := by
  unfold addmod
  rw [if_neg (by norm_num), subw_q y (by omega)]
  refine ⟨Nat.mod_lt _ (by norm_num), ?_⟩
  rw [bmod_q, bmod_q]
  omega

theorem normLoop_eq (read : ℕ → ℕ) (h : ∀ off, read off < 12289) : ∀ (m i norm fuel : ℕ), i + m = 511 → m < fuel → norm ≤ i * 2 ^ 26 →
    normLoop read fuel (32 * (i + 1)) norm = norm + ((List.range' i m).map fun j => foldCoef (read (32 * (j + 1))) * foldCoef (read (32 * (j + 1)))).sum := by
  intro m
  induction m with
  | zero =>
    intro i norm fuel hi hf hn
    cases fuel with
    | zero => omega
    | succ fuel => unfold normLoop; rw [if_neg (by omega)]; simp
  | succ m ih =>
    intro i norm fuel hi hf hn
    cases fuel with
    | zero => omega
    | succ fuel =>
      have hW := W_big
      have hb := foldCoef_bound _ (h (32 * (i + 1)))
      have hb2 : foldCoef (read (32 * (i + 1))) * foldCoef (read (32 * (i + 1))) ≤ 6144 * 6144 := Nat.mul_le_mul hb hb
      have hi' : i * 2 ^ 26 ≤ 511 * 2 ^ 26 := Nat.mul_le_mul_right _ (by omega)
      unfold normLoop
      rw [if_pos (by omega), show 32 * (i + 1) + 32 = 32 * ((i + 1) + 1) by ring]
      unfold addw mulw
      rw [Nat.mod_eq_of_lt (a := _ * _) (by omega), Nat.mod_eq_of_lt (by omega)]
      rw [ih (i + 1) _ fuel (by omega) (by omega) (by omega), List.range'_succ, List.map_cons, List.sum_cons]
      ring

theorem normLoop_past (read : ℕ → ℕ) (fuel off norm : ℕ) (h : 16384 ≤ off) : normLoop read fuel off norm = norm := by
  cases fuel with
  | zero => rfl
  | succ fuel => unfold normLoop; rw [if_neg (by omega)]

theorem sum_map_cast (l : List ℕ) : ((l.sum : ℕ) : ℤ) = (List.map (fun x : ℕ => (x : ℤ)) l).sum := by
  induction l with
  | nil => rfl
  | cons a l ih => simp [ih]

theorem length_diff (c p : List ℕ) : (diff c p).length = min c.length p.length := by simp [diff]

/-- What `falcon_normalize` computes when its array lies beyond the first 16 KiB of memory: the first 511 coefficients of the difference only. -/
theorem normalize_iff (s1Ptr : ℕ) (hp : 16352 ≤ s1Ptr) (p s2 hashed : List ℕ) (hl : p.length = 512) (hr : ∀ x ∈ p, x < 12289) (hh : hashed.length = 512) :
    normalize s1Ptr p s2 hashed = true ↔ normSq ((diff hashed p).take 511) < 34034726 := by
  have hget : ∀ i : ℕ, p[i]! < 12289 := by
    intro i
    by_cases hi : i < p.length
    · rw [getElem!_pos p i hi]; exact hr _ (List.getElem_mem hi)
    · rw [getElem!_neg p i hi]; decide
  have e : ((normLoop (fun off => addmod hashed[(off - 32) / 32]! (subw qF p[(off - 32) / 32]!) qF) 512 32 0 : ℕ) : ℤ) = normSq ((diff hashed p).take 511) := by
    have e0 := normLoop_eq (fun off => addmod hashed[(off - 32) / 32]! (subw qF p[(off - 32) / 32]!) qF)
      (fun off => (addmod_diff _ _ (hget _)).1) 511 0 0 512 (by omega) (by omega) (by omega)
    rw [e0, zero_add, sum_map_cast]
    unfold normSq
    refine congrArg List.sum ?_
    rw [List.map_map, ← List.range_eq_range']
    apply List.ext_getElem
    · simp [length_diff, hl, hh]
    · intro i h1 h2
      have hi : i < 511 := by simpa using h1
      simp only [List.getElem_map, List.getElem_range, Function.comp_apply, List.getElem_take, diff, List.getElem_zipWith, Nat.cast_mul]
      rw [show (32 * (i + 1) - 32) / 32 = i by omega]
      obtain ⟨a1, a2⟩ := addmod_diff hashed[i]! p[i]! (hget i)
      rw [show qF = 12289 from rfl, foldCoef_sq _ a1, a2, getElem!_pos hashed i (by omega), getElem!_pos p i (by omega)]
  unfold normalize
  dsimp only
  rw [normLoop_past _ _ (s1Ptr + 32) _ (by omega), ← e, decide_eq_true_iff]
  unfold sigBound
  omega

theorem fields_eq (ws : List ℕ) (h : ws.length = 32) : solExpand (asMem ws (fun _ => 0)) = fields ws := by
  rw [solExpand_eq]
  unfold fields
  apply List.map_congr_left
  intro i hi
  rw [asMem_lt_getD _ _ _ (by have := List.mem_range.1 hi; omega)]

theorem length_fields (ws : List ℕ) : (fields ws).length = 512 := by unfold fields; rw [List.length_map, List.length_range]

theorem fields_lt (ws : List ℕ) : ∀ x ∈ fields ws, x < 65536 := by
  intro x hx
  unfold fields at hx
  obtain ⟨i, _, rfl⟩ := List.mem_map.1 hx
  exact Nat.mod_lt _ (by norm_num)

/-- The expanded product array of `falcon_core`. -/
theorem core_product (s2 ntth h : List ℕ) (hs : s2.length = 32) (ht : ntth.length = 32) (hk : HoldsKey ntth h) :
    IsProduct 12289 (fields s2) h (solExpand (asMem (halfMulCompact (asMem s2 (fun _ => 0)) (asMem ntth (fun _ => 0))) (fun _ => 0))) := by
  have hp := halfmul512 (fields s2) (fields ntth) h (length_fields _) hk.1.1 hk.2
  unfold halfMulCompact
  rw [fields_eq s2 hs, fields_eq ntth ht, Packing.solExpand_solCompact _ _ _ (by rw [hp.1, length_fields]) (fun x hx => by have := hp.2.1 x hx; omega)]
  exact hp

theorem product_unique (a h p p' : List ℕ) (hp : IsProduct 12289 a h p) (hp' : IsProduct 12289 a h p') : p = p' := by
  apply list_eq_of_res (q := 12289) p p' (by rw [hp.1, hp'.1]) (get_lt_of_mem rfl hp.2.1)
    (by rw [hp.1, ← hp'.1]; exact get_lt_of_mem rfl hp'.2.1)
  intro x hx
  rw [← at'_toZ _ _ _ hx, hp.2.2, ← hp'.2.2, at'_toZ _ _ _ (by rw [hp'.1, ← hp.1]; exact hx)]

theorem length_solCompact (a : ℕ → ℕ) (h : ∀ i < 512, a i < 65536) : (solCompact a).length = 32 := by
  rw [solCompact_eq a h, List.length_map, List.length_range]

end Verif.Contract
