import Verif.Keccak.Model
import Verif.Keccak.SolModel

/-! # Property C42: the two implementations of Keccak-f[1600] compute the FIPS 202 permutation -/

namespace Verif.Keccak

theorem rol_eq (x : BitVec 64) (s : Nat) (h0 : 0 < s) (h : s < 64) : rol x s = x.rotateLeft s := by
  unfold rol
  rw [BitVec.rotateLeft_def, Nat.mod_eq_of_lt h]
  ext i hi
  simp only [BitVec.getElem_xor, BitVec.getElem_or, BitVec.getElem_shiftLeft, BitVec.getElem_ushiftRight]
  by_cases hs : i < s
  · simp [hs]
  · rw [show x.getLsbD (64 - s + i) = false from BitVec.getLsbD_of_ge _ _ (by omega)]
    simp

theorem rotateLeft_zero (x : BitVec 64) : x.rotateLeft 0 = x := by
  rw [BitVec.rotateLeft_def]
  ext i hi
  simp

theorem list25 {α} (l : List α) (h : l.length = 25) : ∃ a0 a1 a2 a3 a4 a5 a6 a7 a8 a9 a10 a11 a12 a13 a14 a15 a16 a17 a18 a19 a20 a21 a22 a23 a24,
    l = [a0, a1, a2, a3, a4, a5, a6, a7, a8, a9, a10, a11, a12, a13, a14, a15, a16, a17, a18, a19, a20, a21, a22, a23, a24] := by
  match l, h with
  | [a0, a1, a2, a3, a4, a5, a6, a7, a8, a9, a10, a11, a12, a13, a14, a15, a16, a17, a18, a19, a20, a21, a22, a23, a24], _ =>
    exact ⟨a0, a1, a2, a3, a4, a5, a6, a7, a8, a9, a10, a11, a12, a13, a14, a15, a16, a17, a18, a19, a20, a21, a22, a23, a24, rfl⟩

theorem rhoTable : ∀ y < 5, ∀ x < 5, Spec.rhoOffset x y =
    (([[0, 1, 62, 28, 27], [36, 44, 6, 55, 20], [3, 10, 43, 25, 39], [41, 45, 15, 21, 8], [18, 2, 61, 56, 14]] : List (List Nat)).getD y []).getD x 0 := by
  decide +kernel

theorem rcTable : ∀ i < 24, Spec.RC i = BitVec.ofNat 64 (keccakRc.getD i 0) := by decide +kernel

/-- One Python round is one FIPS 202 round. -/
theorem round_spec (ir : Nat) (l : List Lane) (h : l.length = 25) :
    round (Spec.RC ir) l = Spec.lanes (Spec.round ir (Spec.ofLanes l)) := by
  obtain ⟨a0, a1, a2, a3, a4, a5, a6, a7, a8, a9, a10, a11, a12, a13, a14, a15, a16, a17, a18, a19, a20, a21, a22, a23, a24, rfl⟩ := list25 l h
  have r : ∀ x < 5, ∀ y < 5, Spec.rhoOffset x y =
    (([[0, 1, 62, 28, 27], [36, 44, 6, 55, 20], [3, 10, 43, 25, 39], [41, 45, 15, 21, 8], [18, 2, 61, 56, 14]] : List (List Nat)).getD y []).getD x 0 :=
    fun x hx y hy => rhoTable y hy x hx
  simp only [round, List.range, List.range.loop, List.map, List.foldl, ln, keccakPi, keccakRho, List.getD_cons_zero, List.getD_cons_succ,
    Nat.reduceAdd, Nat.reduceMod, List.set, BitVec.zero_xor]
  simp only [Spec.lanes, Spec.round, Spec.iota, Spec.chi, Spec.pi, Spec.rho, Spec.theta, Spec.ofLanes, List.range, List.range.loop, List.map,
    Nat.reduceMod, Nat.reduceDiv, Nat.reduceMul, Nat.reduceAdd, List.getD_cons_zero, List.getD_cons_succ, Nat.reduceEqDiff, and_true, and_false,
    and_self, if_true, if_false]
  simp only [r _ (by decide : 0 < 5) _ (by decide : 0 < 5), r _ (by decide : 1 < 5) _ (by decide : 1 < 5), r _ (by decide : 2 < 5) _ (by decide : 2 < 5),
    r _ (by decide : 3 < 5) _ (by decide : 3 < 5), r _ (by decide : 4 < 5) _ (by decide : 4 < 5),
    r 0 (by decide) 1 (by decide), r 0 (by decide) 2 (by decide), r 0 (by decide) 3 (by decide), r 0 (by decide) 4 (by decide),
    r 1 (by decide) 0 (by decide), r 1 (by decide) 2 (by decide), r 1 (by decide) 3 (by decide), r 1 (by decide) 4 (by decide),
    r 2 (by decide) 0 (by decide), r 2 (by decide) 1 (by decide), r 2 (by decide) 3 (by decide), r 2 (by decide) 4 (by decide),
    r 3 (by decide) 0 (by decide), r 3 (by decide) 1 (by decide), r 3 (by decide) 2 (by decide), r 3 (by decide) 4 (by decide),
    r 4 (by decide) 0 (by decide), r 4 (by decide) 1 (by decide), r 4 (by decide) 2 (by decide), r 4 (by decide) 3 (by decide),
    List.getD_cons_zero, List.getD_cons_succ, rotateLeft_zero]
  simp (discharger := decide) only [rol_eq]

theorem foldl_length {α β} (g : List α → β → List α) (hg : ∀ l b, (g l b).length = l.length) (l : List α) (bs : List β) :
    (bs.foldl g l).length = l.length := by
  induction bs generalizing l with
  | nil => rfl
  | cons b bs ih => rw [List.foldl_cons, ih, hg]

theorem foldl_fst_length {α β γ} (g : List α × γ → β → List α × γ) (hg : ∀ l b, (g l b).1.length = l.1.length) (l : List α × γ) (bs : List β) :
    (bs.foldl g l).1.length = l.1.length := by
  induction bs generalizing l with
  | nil => rfl
  | cons b bs ih => rw [List.foldl_cons, ih, hg]

theorem round_length (rc : Lane) (l : List Lane) (h : l.length = 25) : (round rc l).length = 25 := by
  unfold round
  dsimp only
  rw [List.length_set, foldl_length, foldl_fst_length, foldl_length, h]
  · intro l b; rw [foldl_length]; intro l b; rw [List.length_set]
  · intro l b; rw [List.length_set]
  · intro l b; rw [foldl_length]; intro l b; rw [List.length_set]

theorem ofLanes_lanes (A : Spec.State) : ∀ x < 5, ∀ y < 5, Spec.ofLanes (Spec.lanes A) x y = A x y := by
  intro x hx y hy
  unfold Spec.ofLanes Spec.lanes
  rw [List.getD_eq_getElem?_getD, List.getElem?_map, List.getElem?_range (by omega)]
  simp only [Option.map_some, Option.getD_some]
  rw [show (5 * y + x) % 5 = x by omega, show (5 * y + x) / 5 = y by omega]

/-- Two states that agree on the 25 coordinates. -/
def Same (A B : Spec.State) : Prop := ∀ x < 5, ∀ y < 5, A x y = B x y

theorem same_theta {A B : Spec.State} (h : Same A B) : Same (Spec.theta A) (Spec.theta B) := by
  intro x hx y hy
  have h1 := fun y (hy : y < 5) => h x hx y hy
  have h2 := fun y (hy : y < 5) => h ((x + 4) % 5) (by omega) y hy
  have h3 := fun y (hy : y < 5) => h ((x + 1) % 5) (by omega) y hy
  simp only [Spec.theta]
  rw [h1 y hy, h2 0 (by omega), h2 1 (by omega), h2 2 (by omega), h2 3 (by omega), h2 4 (by omega),
    h3 0 (by omega), h3 1 (by omega), h3 2 (by omega), h3 3 (by omega), h3 4 (by omega)]

theorem same_round {A B : Spec.State} (ir : Nat) (h : Same A B) : Same (Spec.round ir A) (Spec.round ir B) := by
  have h1 := same_theta h
  have h2 : Same (Spec.pi (Spec.rho (Spec.theta A))) (Spec.pi (Spec.rho (Spec.theta B))) := by
    intro x hx y hy
    simp only [Spec.pi, Spec.rho]
    rw [h1 _ (by omega) x hx]
  intro x hx y hy
  simp only [Spec.round, Spec.iota, Spec.chi]
  rw [h2 x hx y hy, h2 _ (by omega) y hy, h2 ((x + 2) % 5) (by omega) y hy]

theorem lanes_same {A B : Spec.State} (h : Same A B) : Spec.lanes A = Spec.lanes B := by
  unfold Spec.lanes
  apply List.map_congr_left
  intro i hi
  have : i < 25 := by simpa using hi
  exact h _ (by omega) _ (by omega)

theorem F1600_aux (l : List Lane) (h : l.length = 25) (N : Nat) (hN : N ≤ 24) :
    (List.range N).foldl (fun state i => round (BitVec.ofNat 64 (keccakRc.getD i 0)) state) l =
      Spec.lanes ((List.range N).foldl (fun A ir => Spec.round ir A) (Spec.ofLanes l)) ∧
    ((List.range N).foldl (fun state i => round (BitVec.ofNat 64 (keccakRc.getD i 0)) state) l).length = 25 := by
  induction N with
  | zero =>
    refine ⟨?_, h⟩
    obtain ⟨a0, a1, a2, a3, a4, a5, a6, a7, a8, a9, a10, a11, a12, a13, a14, a15, a16, a17, a18, a19, a20, a21, a22, a23, a24, rfl⟩ := list25 l h
    rfl
  | succ N ih =>
    obtain ⟨ih1, ih2⟩ := ih (by omega)
    simp only [List.range_succ, List.foldl_append, List.foldl_cons, List.foldl_nil]
    refine ⟨?_, round_length _ _ ih2⟩
    rw [← rcTable N (by omega), round_spec N _ ih2]
    apply lanes_same
    apply same_round
    rw [ih1]
    exact fun x hx y hy => ofLanes_lanes _ x hx y hy

/-- **C42**: on every state of 25 lanes, the Python permutation is Keccak-f[1600] of FIPS 202. -/
theorem F1600_spec (l : List Lane) (h : l.length = 25) : F1600 l = Spec.F l := (F1600_aux l h 24 (by omega)).1

theorem F1600_length (l : List Lane) (h : l.length = 25) : (F1600 l).length = 25 := (F1600_aux l h 24 (by omega)).2

theorem toNat_lt (x : Lane) : x.toNat < 2 ^ 64 := x.isLt

theorem mask_eq : Sol.mask = 2 ^ 64 - 1 := rfl

theorem and_mask (x : Nat) : x &&& Sol.mask = x % 2 ^ 64 := by rw [mask_eq, Nat.and_two_pow_sub_one_eq_mod]

theorem sol_rotl (x : Lane) (s : Nat) : Sol.rotl x.toNat s = (rol x s).toNat := by
  unfold Sol.rotl rol
  rw [Nat.and_comm, and_mask, BitVec.toNat_xor, BitVec.toNat_shiftLeft, BitVec.toNat_ushiftRight, Nat.xor_mod_two_pow,
    Nat.mod_mod_of_dvd _ (by decide : 2 ^ 64 ∣ 2 ^ 256), Nat.mod_eq_of_lt (a := x.toNat >>> (64 - s))]
  exact Nat.lt_of_le_of_lt (by rw [Nat.shiftRight_eq_div_pow]; exact Nat.div_le_self _ _) (toNat_lt x)

theorem sol_not (x : Lane) : x.toNat ^^^ Sol.mask = (~~~x).toNat := by
  rw [show Sol.mask = (BitVec.allOnes 64).toNat from rfl, ← BitVec.toNat_xor, BitVec.xor_allOnes]

theorem sol_masked (x : Lane) : x.toNat &&& Sol.mask = x.toNat := by rw [and_mask, Nat.mod_eq_of_lt (toNat_lt x)]

/-- One contract round is one Python round, on lane values. -/
theorem sol_round (rc : Lane) (l : List Lane) (h : l.length = 25) :
    Sol.round rc.toNat (l.map BitVec.toNat) = (round rc l).map BitVec.toNat := by
  obtain ⟨a0, a1, a2, a3, a4, a5, a6, a7, a8, a9, a10, a11, a12, a13, a14, a15, a16, a17, a18, a19, a20, a21, a22, a23, a24, rfl⟩ := list25 l h
  simp only [round, List.range, List.range.loop, List.map, List.foldl, ln, keccakPi, keccakRho, List.getD_cons_zero, List.getD_cons_succ,
    Nat.reduceAdd, Nat.reduceMod, List.set, BitVec.zero_xor]
  simp only [Sol.round, Sol.thetaCol, Sol.chiRow, Sol.chiRow0, Sol.wd, Sol.keccakPi, Sol.keccakRho, List.range, List.range.loop, List.map, List.foldl,
    List.getD_cons_zero, List.getD_cons_succ, Nat.reduceAdd, List.set]
  simp only [← BitVec.toNat_xor, sol_rotl, sol_not, ← BitVec.toNat_and, sol_masked]

/-- **C42**: on every state of 25 lanes of 64 bits, the contract permutation and the Python permutation agree. -/
theorem sol_f1600_eq (l : List Lane) (h : l.length = 25) : Sol.f1600 (l.map BitVec.toNat) = (F1600 l).map BitVec.toNat := by
  have aux : ∀ N ≤ 24, (List.range N).foldl (fun state i => Sol.round (Sol.wd Sol.keccakRc i) state) (l.map BitVec.toNat) =
      ((List.range N).foldl (fun state i => round (BitVec.ofNat 64 (keccakRc.getD i 0)) state) l).map BitVec.toNat := by
    intro N hN
    induction N with
    | zero => rfl
    | succ N ih =>
      simp only [List.range_succ, List.foldl_append, List.foldl_cons, List.foldl_nil]
      rw [ih (by omega)]
      have hrc : ∀ i < 24, Sol.wd Sol.keccakRc i = (BitVec.ofNat 64 (keccakRc.getD i 0)).toNat := by decide +kernel
      rw [hrc N (by omega)]
      exact sol_round _ _ (F1600_aux l h N (by omega)).2
  exact aux 24 (by omega)

/-- **C42**, in one statement: contract = FIPS 202. -/
theorem sol_f1600_spec (l : List Lane) (h : l.length = 25) : Sol.f1600 (l.map BitVec.toNat) = (Spec.F l).map BitVec.toNat := by
  rw [sol_f1600_eq l h, F1600_spec l h]

/-- One round with constant 1 on the zero state only sets the low bit of lane 0. -/
example : round 1#64 (List.replicate 25 0#64) = 1#64 :: List.replicate 24 0#64 := by decide +kernel
example : (List.replicate 25 0#64).length = 25 := rfl

end Verif.Keccak
