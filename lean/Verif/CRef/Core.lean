import Verif.CRef.Ntt
import Verif.Falcon.Lib

/-! Consequences of the loop equivalences: the transforms of the C code evaluate and interpolate. -/

namespace Verif.CRef

open Verif.NTT Verif.Ring Verif.Falcon
open Verif.Packing (W getElem!_set)

/-- Evaluation point `i` of the C transform of size `2^k`. -/
def rootC (k i : ℕ) : ZMod 12289 := node (fun j => (psiC j : ZMod 12289)) (2 ^ k + i)

theorem rootC_pow (k : ℕ) (hk : k ≤ 10) (i : ℕ) (hi : i < 2 ^ k) : rootC k i ^ 2 ^ k = -1 := (lawC k hk).node_pow i hi

theorem q_pos : 0 < 12289 := by norm_num

theorem mqNTT_ok (k : ℕ) (a : List ℕ) (ha : a.length = 2 ^ k) (h : Canon a) : (mqNTT k a).length = 2 ^ k ∧ Canon (mqNTT k a) := by
  obtain ⟨e1, e2⟩ := fwOuter_eq (2 ^ k) k (2 ^ k) 1 a (by omega) h
  unfold mqNTT
  rw [e1]
  exact ⟨(nttFw_spec psiC q_pos qF_lt k a ha).1, e2⟩

theorem mqNTT_ev (k : ℕ) (hk : k ≤ 10) (a : List ℕ) (ha : a.length = 2 ^ k) (h : Canon a) (i : ℕ) (hi : i < 2 ^ k) :
    (((mqNTT k a)[i]! : ℕ) : ZMod 12289) = ev (rootC k i) (NTT.toZ 12289 a) := by
  rw [mqNTT_eq k a h]
  exact (lawC k hk).fw_eval q_pos qF_lt a ha i hi

theorem canon_of_lt (n : ℕ) (a : List ℕ) (ha : a.length = n) (h : ∀ x < n, a[x]! < 12289) : Canon a := by
  intro j
  by_cases hj : j < n
  · exact h j hj
  · rw [List.getElem!_eq_getElem?_getD, List.getElem?_eq_none (by omega)]
    exact q_pos

theorem mqINTT_ok (k : ℕ) (a : List ℕ) (ha : a.length = 2 ^ k) (h : Canon a) : (mqINTT k a).length = 2 ^ k ∧ Canon (mqINTT k a) := by
  rw [mqINTT_eq k a ha h]
  obtain ⟨h1, h2, _⟩ := nttInv_spec psiC' q_pos qF_lt (scaleC k) k a ha (fun x _ => (h x).le)
  exact ⟨h1, canon_of_lt _ _ h1 h2⟩

theorem mqNTT_mqINTT (k : ℕ) (hk : k ≤ 10) (a : List ℕ) (ha : a.length = 2 ^ k) (h : Canon a) : mqNTT k (mqINTT k a) = a := by
  obtain ⟨i1, i2⟩ := mqINTT_ok k a ha h
  obtain ⟨j1, j2⟩ := mqNTT_ok k _ i1 i2
  apply list_eq_of_res (q := 12289) _ _ (by rw [j1, ha]) (fun x _ => j2 x) (fun x _ => h x)
  intro x hx
  rw [j1] at hx
  rw [mqNTT_eq k _ i2, mqINTT_eq k a ha h]
  exact (lawC k hk).fw_inv q_pos qF_lt (scaleC k) (scaleC_inv k) a ha (fun x _ => (h x).le) x hx

theorem mqINTT_mqNTT (k : ℕ) (hk : k ≤ 10) (a : List ℕ) (ha : a.length = 2 ^ k) (h : Canon a) : mqINTT k (mqNTT k a) = a := by
  obtain ⟨i1, i2⟩ := mqNTT_ok k a ha h
  obtain ⟨j1, j2⟩ := mqINTT_ok k _ i1 i2
  apply list_eq_of_res (q := 12289) _ _ (by rw [j1, ha]) (fun x _ => j2 x) (fun x _ => h x)
  intro x hx
  rw [j1] at hx
  rw [mqINTT_eq k _ i1 i2, mqNTT_eq k a h]
  rw [mqNTT_eq k a h] at i1 i2
  exact (lawC k hk).inv_fw q_pos qF_lt (scaleC k) (scaleC_inv k) _ i1 (fun x _ => (i2 x).le) (res 12289 a)
    (nttFw_spec psiC q_pos qF_lt k a ha).2.2 x hx

/-! ## Pointwise loops -/

theorem get_map (n : ℕ) (f : ℕ → ℕ) (i : ℕ) (hi : i < n) : ((List.range n).map f)[i]! = f i := by
  rw [getElem!_pos _ i (by simpa using hi), List.getElem_map, List.getElem_range]

theorem get_mapZ (n : ℕ) (f : ℕ → ℤ) (i : ℕ) (hi : i < n) : ((List.range n).map f)[i]! = f i := by
  rw [getElem!_pos _ i (by simpa using hi), List.getElem_map, List.getElem_range]

theorem canon_map (n : ℕ) (f : ℕ → ℕ) (h : ∀ i < n, f i < 12289) : Canon ((List.range n).map f) :=
  canon_of_lt n _ (by simp) (fun x hx => by rw [get_map n f x hx]; exact h x hx)

theorem u16_montymul (x y : ℕ) (hx : x < 12289) (hy : y < 12289) : u16 (mqMontymul x y) = mqMontymul x y :=
  u16_of_lt _ (mqMontymul_lt x y hx hy)

theorem polyToMonty_ok (k : ℕ) (a : List ℕ) (h : Canon a) : (polyToMonty k a).length = 2 ^ k ∧ Canon (polyToMonty k a) ∧
    ∀ i < 2 ^ k, (((polyToMonty k a)[i]! : ℕ) : ZMod 12289) = (a[i]! : ℕ) * 65536 := by
  have h1 : (10952 : ℕ) < 12289 := by norm_num
  unfold polyToMonty
  refine ⟨by simp, canon_map _ _ (fun i _ => ?_), fun i hi => ?_⟩
  · rw [u16_montymul _ _ (h i) h1]; exact mqMontymul_lt _ _ (h i) h1
  · rw [get_map _ _ i hi, u16_montymul _ _ (h i) h1, cast_montymul _ _ (h i) h1]
    have : ((10952 : ℕ) : ZMod 12289) * 2304 = 65536 := by decide +kernel
    rw [mul_assoc, this]

theorem polyMontymul_ok (k : ℕ) (a b : List ℕ) (h : Canon a) (h' : Canon b) : (polyMontymul k a b).length = 2 ^ k ∧ Canon (polyMontymul k a b) ∧
    ∀ i < 2 ^ k, (((polyMontymul k a b)[i]! : ℕ) : ZMod 12289) = (a[i]! : ℕ) * (b[i]! : ℕ) * 2304 := by
  unfold polyMontymul
  refine ⟨by simp, canon_map _ _ (fun i _ => ?_), fun i hi => ?_⟩
  · rw [u16_montymul _ _ (h i) (h' i)]; exact mqMontymul_lt _ _ (h i) (h' i)
  · rw [get_map _ _ i hi, u16_montymul _ _ (h i) (h' i), cast_montymul _ _ (h i) (h' i)]

theorem mqSub_lt (x y : ℕ) (hx : x < 12289) (hy : y < 12289) : mqSub x y < 12289 := by
  rw [mqSub_eq x y hx hy]; exact Nat.mod_lt _ q_pos

theorem cast_mqSub (x y : ℕ) (hx : x < 12289) (hy : y < 12289) : ((mqSub x y : ℕ) : ZMod 12289) = x - y := by
  rw [mqSub_eq x y hx hy, ZMod.natCast_mod]
  push_cast [Nat.cast_sub hy.le]
  have : (12289 : ZMod 12289) = 0 := by decide +kernel
  rw [this]; ring

theorem polySub_ok (k : ℕ) (a b : List ℕ) (h : Canon a) (h' : Canon b) : (polySub k a b).length = 2 ^ k ∧ Canon (polySub k a b) ∧
    ∀ i < 2 ^ k, (((polySub k a b)[i]! : ℕ) : ZMod 12289) = (a[i]! : ℕ) - (b[i]! : ℕ) := by
  unfold polySub
  refine ⟨by simp, canon_map _ _ (fun i _ => ?_), fun i hi => ?_⟩
  · rw [u16_of_lt _ (mqSub_lt _ _ (h i) (h' i))]; exact mqSub_lt _ _ (h i) (h' i)
  · rw [get_map _ _ i hi, u16_of_lt _ (mqSub_lt _ _ (h i) (h' i)), cast_mqSub _ _ (h i) (h' i)]

/-- The reduction of one signed coefficient. -/
theorem convSmall_ok (x : ℤ) (h1 : -12289 ≤ x) (h2 : x < 12289) : convSmall x = (x % 12289).toNat := by
  unfold convSmall
  have hu : u32 x < 4294967296 := by unfold u32; omega
  dsimp only
  rw [cond_add _ hu]
  unfold u32
  by_cases h : 0 ≤ x
  · rw [if_pos (by omega)]; omega
  · rw [if_neg (by omega)]; omega

theorem emod_lt (x : ℤ) : (x % 12289).toNat < 12289 := by omega

theorem cast_emodN (x : ℤ) : (((x % 12289).toNat : ℕ) : ZMod 12289) = (x : ZMod 12289) := by
  have h : (((x % 12289).toNat : ℕ) : ℤ) = x % 12289 := by omega
  have := congrArg (fun z : ℤ => (z : ZMod 12289)) h
  simp only [Int.cast_natCast] at this
  rw [this, cast_emod]

theorem reduceAll_ok (k : ℕ) (s : List ℤ) (hs : s.length = 2 ^ k) (h : ∀ x ∈ s, -12289 ≤ x ∧ x < 12289) :
    (reduceAll k s).length = 2 ^ k ∧ Canon (reduceAll k s) ∧ NTT.toZ 12289 (reduceAll k s) = zq s := by
  have h' : ∀ i < 2 ^ k, u16 (convSmall s[i]!) = (s[i]! % 12289).toNat := by
    intro i hi
    rw [getElem!_pos s i (by omega)]
    obtain ⟨h1, h2⟩ := h _ (List.getElem_mem (show i < s.length by omega))
    rw [convSmall_ok _ h1 h2, u16_of_lt _ (emod_lt _)]
  unfold reduceAll
  refine ⟨by simp, canon_map _ _ (fun i hi => by rw [h' i hi]; exact emod_lt _), ?_⟩
  unfold NTT.toZ zq
  apply List.ext_getElem (by simp [hs])
  intro i h1 h2
  simp only [List.length_map, List.length_range] at h1
  rw [List.getElem_map, List.getElem_map, List.getElem_map, List.getElem_range, h' i h1, cast_emodN, getElem!_pos s i (by omega)]

/-! ## The transforms as an instance of the assumptions used for `polyntt` -/

/-- Canonical residues of integers. -/
def redInt (a : List ℤ) : List ℕ := a.map fun x => (x % 12289).toNat
/-- Natural numbers as integers. -/
def natInt (a : List ℕ) : List ℤ := List.map (fun x : ℕ => (x : ℤ)) a

theorem canon_redInt (a : List ℤ) : Canon (redInt a) := by
  rw [canon_iff]; unfold redInt; intro x hx
  obtain ⟨y, _, rfl⟩ := List.mem_map.1 hx
  exact emod_lt y
@[simp] theorem length_redInt (a : List ℤ) : (redInt a).length = a.length := by simp [redInt]
@[simp] theorem length_natInt (a : List ℕ) : (natInt a).length = a.length := by simp [natInt]
theorem toZ_redInt (a : List ℤ) : NTT.toZ 12289 (redInt a) = zq a := by
  unfold NTT.toZ redInt zq
  rw [List.map_map]
  exact List.map_congr_left fun x _ => cast_emodN x
theorem zq_natInt (a : List ℕ) : zq (natInt a) = NTT.toZ 12289 a := by
  unfold NTT.toZ natInt zq
  rw [List.map_map]
  exact List.map_congr_left fun x _ => by simp
theorem redInt_natInt (a : List ℕ) (h : Canon a) : redInt (natInt a) = a := by
  rw [canon_iff] at h
  unfold redInt natInt
  rw [List.map_map]
  conv_rhs => rw [← List.map_id a]
  exact List.map_congr_left fun x hx => by have := h x hx; simp only [Function.comp_apply, id_eq]; omega
theorem reduced_natInt (a : List ℕ) (h : Canon a) : Reduced (natInt a) := by
  rw [canon_iff] at h
  unfold natInt Reduced
  intro x hx
  obtain ⟨y, hy, rfl⟩ := List.mem_map.1 hx
  have := h y hy
  omega
theorem getD_natInt (a : List ℕ) (i : ℕ) : (natInt a).getD i 0 = ((a[i]! : ℕ) : ℤ) := by
  unfold natInt
  rw [List.getD_eq_getElem?_getD, List.getElem!_eq_getElem?_getD, List.getElem?_map]
  cases a[i]? <;> rfl

/-- The C transforms, on integer lists: used to transfer facts proved from `NttLaw`. -/
def cLib (k : ℕ) : PolyLib where
  mul a _ := a
  sub a _ := a
  div _ _ := none
  inverse _ := none
  ntt a := natInt (mqNTT k (redInt a))
  intt a := natInt (mqINTT k (redInt a))
  vecMul a b := List.zipWith (fun x y => x * y % 12289) a b

theorem cLib_law (k : ℕ) (hk : k ≤ 10) : NttLaw (cLib k) (2 ^ k) (rootC k) := by
  refine ⟨fun i hi => rootC_pow k hk i hi, fun a ha => ?_, fun a ha => ?_, fun a ha => ?_, fun a b ha hb => ?_⟩
  · have hl : (redInt a).length = 2 ^ k := by simpa using ha
    obtain ⟨j1, j2⟩ := mqNTT_ok k _ hl (canon_redInt a)
    refine ⟨by simpa [cLib] using j1, reduced_natInt _ j2, fun i hi => ?_⟩
    show (((natInt (mqNTT k (redInt a))).getD i 0 : ℤ) : ZMod 12289) = _
    rw [getD_natInt, Int.cast_natCast, mqNTT_ev k hk _ hl (canon_redInt a) i hi, toZ_redInt, ← aeval_toPoly, Polynomial.coe_aeval_eq_eval]
  · have hl : (redInt a).length = 2 ^ k := by simpa using ha
    obtain ⟨j1, j2⟩ := mqINTT_ok k _ hl (canon_redInt a)
    refine ⟨by simpa [cLib] using j1, reduced_natInt _ j2, ?_⟩
    show zq (natInt (mqNTT k (redInt (natInt (mqINTT k (redInt a)))))) = zq a
    rw [redInt_natInt _ j2, mqNTT_mqINTT k hk _ hl (canon_redInt a), zq_natInt, toZ_redInt]
  · have hl : (redInt a).length = 2 ^ k := by simpa using ha
    obtain ⟨j1, j2⟩ := mqNTT_ok k _ hl (canon_redInt a)
    show zq (natInt (mqINTT k (redInt (natInt (mqNTT k (redInt a)))))) = zq a
    rw [redInt_natInt _ j2, mqINTT_mqNTT k hk _ hl (canon_redInt a), zq_natInt, toZ_redInt]
  · refine ⟨by simp [cLib, ha, hb], ?_, ?_⟩
    · intro x hx
      simp only [cLib, List.mem_iff_getElem, List.length_zipWith, List.getElem_zipWith] at hx
      obtain ⟨i, _, rfl⟩ := hx
      omega
    · unfold zq cLib
      apply List.ext_getElem (by simp)
      intro i h1 h2
      simp only [List.getElem_map, List.getElem_zipWith]
      rw [cast_emod, Int.cast_mul]

end Verif.CRef
