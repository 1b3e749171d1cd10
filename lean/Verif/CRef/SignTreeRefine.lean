import Verif.CRef.SignTreeSpec
import Verif.CRef.FprAdd
import Verif.CRef.FftInt

/-! # The stored tree is the decomposition that `do_sign_dyn` recomputes -/

namespace Verif.CRef.SignTree

open Verif.CRef.Fpr Verif.CRef.Fft Verif.CRef.SignSampler Verif.CRef.SignDyn

theorem mulMant_comm (x y : W) : mulMant x y = mulMant y x := by
  unfold mulMant
  dsimp only
  generalize x.setWidth 32 &&& 0x01FFFFFF#32 = x0
  generalize y.setWidth 32 &&& 0x01FFFFFF#32 = y0
  generalize (x >>> 25).setWidth 32 = x1
  generalize (y >>> 25).setWidth 32 = y1
  rw [BitVec.mul_comm (x0.setWidth 64) (y0.setWidth 64), BitVec.mul_comm (x1.setWidth 64) (y1.setWidth 64), BitVec.mul_comm (x0.setWidth 64) (y1.setWidth 64), BitVec.mul_comm (x1.setWidth 64) (y0.setWidth 64)]
  generalize (y1.setWidth 64 * x0.setWidth 64 : W) = a
  generalize (y0.setWidth 64 * x1.setWidth 64 : W) = b
  generalize (y0.setWidth 64 * x0.setWidth 64 : W) = c
  rw [BitVec.add_assoc ((c >>> 25).setWidth 32) (a.setWidth 32 &&& 0x01FFFFFF#32) (b.setWidth 32 &&& 0x01FFFFFF#32), BitVec.add_comm (a.setWidth 32 &&& 0x01FFFFFF#32) (b.setWidth 32 &&& 0x01FFFFFF#32),
    ← BitVec.add_assoc ((c >>> 25).setWidth 32) (b.setWidth 32 &&& 0x01FFFFFF#32) (a.setWidth 32 &&& 0x01FFFFFF#32), BitVec.add_comm ((a >>> 25).setWidth 32) ((b >>> 25).setWidth 32)]

/-- `fpr_mul` is commutative, bit for bit. -/
theorem mul_comm' (x y : W) : mul x y = mul y x := by
  unfold mul
  dsimp only
  rw [mulMant_comm, BitVec.xor_comm x y, add_comm (((x >>> 52) &&& 0x7FF#64).toNat : ℤ), Nat.and_comm]

theorem mag_sgn (x y : W) (h : x.toNat % 2 ^ 63 = y.toNat % 2 ^ 63) (s : sgn x = sgn y) : x = y := by
  apply BitVec.eq_of_toNat_eq
  unfold sgn at s
  have := x.isLt; have := y.isLt
  omega

theorem sgn_two (x : W) : sgn x = 0 ∨ sgn x = 1 := by
  unfold sgn
  have := x.isLt
  omega

/-- `fpr_add` is commutative, bit for bit. -/
theorem add_comm' (x y : W) : add x y = add y x := by
  obtain ⟨a, b, e1, c1, m1, s1⟩ := addSwap_spec x y
  obtain ⟨c, d, e2, c2, m2, s2⟩ := addSwap_spec y x
  rw [add_eq_tail x y a b e1, add_eq_tail y x c d e2]
  have : x.toNat % 2 ^ 63 = y.toNat % 2 ^ 63 → sgn x = sgn y → x = y := mag_sgn x y
  have tx := sgn_two x
  have ty := sgn_two y
  rcases c1 with ⟨h1, h2⟩ | ⟨h1, h2⟩ <;> rcases c2 with ⟨h3, h4⟩ | ⟨h3, h4⟩ <;> rw [h1, h2, h3, h4] <;> rw [h1, h2] at m1 s1 <;> rw [h3, h4] at m2 s2
  · have e : x = y := by
      refine this (by omega) ?_
      have := s1 (by omega); have := s2 (by omega)
      omega
    rw [e]
  · have e : x = y := by
      refine this (by omega) ?_
      have := s1 (by omega); have := s2 (by omega)
      omega
    rw [e]

theorem cMul_comm (a b : C) : cMul a b = cMul b a := by
  unfold cMul
  rw [mul_comm' a.1 b.1, mul_comm' a.2 b.2, mul_comm' a.1 b.2, mul_comm' a.2 b.1, add_comm' (mul b.2 a.1)]

theorem cAdd_comm (a b : C) : cAdd a b = cAdd b a := by unfold cAdd; rw [add_comm' a.1, add_comm' a.2]

theorem polyAdd_comm (a b : List W) (k : ℕ) : polyAdd a b k = polyAdd b a k := by
  unfold polyAdd
  exact List.map_congr_left fun u _ => add_comm' _ _

theorem polyMul_comm (a b : List W) (k : ℕ) : polyMulFft a b k = polyMulFft b a k := by
  unfold polyMulFft
  rw [show (fun u => cMul (slot a (2 ^ k / 2) u) (slot b (2 ^ k / 2) u)) = fun u => cMul (slot b (2 ^ k / 2) u) (slot a (2 ^ k / 2) u) from funext fun u => cMul_comm _ _]

/-- **C113** (Gram matrix): `expand_privkey` and `do_sign_dyn` compute the same Gram matrix, bit for bit. -/
theorem gram_eq (b : List W × List W × List W × List W) (k : ℕ) : gramTree b k = gram b k := by
  unfold gramTree gram
  rw [polyAdd_comm (polyMuladjFft b.1 b.2.2.1 k)]

theorem ofSlots_length (k : ℕ) (z : ℕ → C) : (ofSlots k z).length = 2 ^ k := by unfold ofSlots; rw [List.length_map, List.length_range]

theorem ldlmv (g00 g01 g11 : List W) (k : ℕ) : polyLdlmvFft g00 g01 g11 k = ((polyLdlFft g00 g01 g11 k).2, (polyLdlFft g00 g01 g11 k).1) := rfl

theorem ldl_length1 (g00 g01 g11 : List W) (k : ℕ) : (polyLdlFft g00 g01 g11 k).1.length = 2 ^ k := ofSlots_length _ _

theorem inner_eq : ∀ (k : ℕ) (g0 g1 : List W), ffLdlInner k g0 g1 = ffLdl k g0 g1 g0
  | 0, _, _ => rfl
  | _ + 1, _, _ => rfl

/-- The tree as a function of the Gram matrix, with the nodes of `do_sign_dyn`. -/
def nodes (orig : ℕ) : ℕ → List W → List W → List W → List W
  | 0, g00, _, _ => [mul (sqrt g00[0]!) invSigma[orig]!]
  | k + 1, g00, g01, g11 =>
    let d := polyLdlFft g00 g01 g11 (k + 1)
    let s0 := polySplitFft g00 (k + 1)
    let s1 := polySplitFft d.2 (k + 1)
    d.1 ++ nodes orig k s0.1 s0.2 s0.1 ++ nodes orig k s1.1 s1.2 s1.1

theorem treesize_succ (k : ℕ) : treesize (k + 1) = 2 ^ (k + 1) + treesize k + treesize k := by unfold treesize; rw [pow_succ]; ring

theorem ldl_length : ∀ (k : ℕ) (g00 g01 g11 : List W), (ffLdl k g00 g01 g11).length = treesize k
  | 0, _, _, _ => rfl
  | k + 1, g00, g01, g11 => by
    unfold ffLdl
    dsimp only
    rw [List.length_append, List.length_append, inner_eq, inner_eq, ldl_length k, ldl_length k, ldlmv, ldl_length1, treesize_succ]

theorem nodes_length (orig : ℕ) : ∀ (k : ℕ) (g00 g01 g11 : List W), (nodes orig k g00 g01 g11).length = treesize k
  | 0, _, _, _ => rfl
  | k + 1, g00, g01, g11 => by
    unfold nodes
    dsimp only
    rw [List.length_append, List.length_append, nodes_length orig k, nodes_length orig k, ldl_length1, treesize_succ]

theorem drop_two {α : Type*} (a b c x : List α) (n m : ℕ) (ha : a.length = n) (hb : b.length = m) : (a ++ b ++ c ++ x).drop (n + m) = c ++ x := by
  rw [List.append_assoc, ← ha, ← hb, ← List.length_append]; exact List.drop_left

theorem drop_one {α : Type*} (a b c x : List α) (n : ℕ) (ha : a.length = n) : (a ++ b ++ c ++ x).drop n = b ++ (c ++ x) := by
  rw [List.append_assoc, List.append_assoc, ← ha]; exact List.drop_left

theorem take_one {α : Type*} (a b c x : List α) (n : ℕ) (ha : a.length = n) : (a ++ b ++ c ++ x).take n = a := by
  rw [List.append_assoc, List.append_assoc, ← ha]; exact List.take_left

/-- Normalizing the tree in place. -/
theorem normalize_eq (orig : ℕ) : ∀ (k : ℕ) (g00 g01 g11 X : List W), ffLdlNormalize orig k (ffLdl k g00 g01 g11 ++ X) = nodes orig k g00 g01 g11
  | 0, _, _, _, _ => rfl
  | k + 1, g00, g01, g11, X => by
    unfold ffLdl ffLdlNormalize nodes
    dsimp only
    rw [ldlmv]
    have l1 := ldl_length1 g00 g01 g11 (k + 1)
    dsimp only
    rw [take_one _ _ _ _ _ l1, drop_one _ _ _ _ _ l1, drop_two _ _ _ _ _ (treesize k) l1 (by rw [inner_eq, ldl_length]), inner_eq, inner_eq, normalize_eq orig k, normalize_eq orig k]

theorem slot_append (a x : List W) (k : ℕ) (ha : a.length = 2 ^ (k + 1)) (u : ℕ) (hu : u < 2 ^ k) : slot (a ++ x) (2 ^ k) u = slot a (2 ^ k) u := by
  unfold slot
  have e : 2 ^ (k + 1) = 2 ^ k + 2 ^ k := by rw [pow_succ]; ring
  rw [List.getElem!_eq_getElem?_getD, List.getElem!_eq_getElem?_getD, List.getElem?_append_left (by omega), List.getElem?_append_left (by omega), List.getElem!_eq_getElem?_getD, List.getElem!_eq_getElem?_getD]

theorem polyMul_append (b a x : List W) (k : ℕ) (ha : a.length = 2 ^ (k + 1)) : polyMulFft b (a ++ x) (k + 1) = polyMulFft b a (k + 1) := by
  have e : 2 ^ (k + 1) / 2 = 2 ^ k := by rw [pow_succ]; omega
  unfold polyMulFft ofSlots
  rw [e]
  refine List.map_congr_left fun u hu => ?_
  have hu := List.mem_range.1 hu
  rw [pow_succ] at hu
  split
  · next h => dsimp only; rw [slot_append a x k ha u h]
  · dsimp only; rw [slot_append a x k ha (u - 2 ^ k) (by omega)]

end Verif.CRef.SignTree
