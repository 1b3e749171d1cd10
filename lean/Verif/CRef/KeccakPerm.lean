import Verif.CRef.Keccak
import Verif.Keccak.Perm

/-! # `sha3_permutation` is Keccak-f[1600] -/

namespace Verif.CRef

open Verif.Keccak.Spec (Lane bytesToLanes lanesToBytes)
open Verif.Keccak (list25 rhoTable rol_eq rotateLeft_zero)

theorem rotl64_eq (x : Lane) (s : Nat) (h0 : 0 < s) (h : s < 64) : rotl64 x s = x.rotateLeft s := rol_eq x s h0 h

theorem rcC : ∀ i < 24, getRoundConstant i = Keccak.Spec.RC i := by decide +kernel

theorem kRound_spec (ir : Nat) (hi : ir < 24) (l : List Lane) (h : l.length = 25) :
    kRound l ir = Keccak.Spec.lanes (Keccak.Spec.round ir (Keccak.Spec.ofLanes l)) := by
  unfold kRound
  rw [rcC ir hi]
  obtain ⟨a0, a1, a2, a3, a4, a5, a6, a7, a8, a9, a10, a11, a12, a13, a14, a15, a16, a17, a18, a19, a20, a21, a22, a23, a24, rfl⟩ := list25 l h
  have r : ∀ x < 5, ∀ y < 5, Keccak.Spec.rhoOffset x y =
    (([[0, 1, 62, 28, 27], [36, 44, 6, 55, 20], [3, 10, 43, 25, 39], [41, 45, 15, 21, 8], [18, 2, 61, 56, 14]] : List (List Nat)).getD y []).getD x 0 :=
    fun x hx y hy => rhoTable y hy x hx
  simp only [kTheta, List.range, List.range.loop, List.map, List.foldl, lane, List.getD_cons_zero, List.getD_cons_succ,
    Nat.reduceAdd, Nat.reduceMod, List.set]
  simp only [kRho, List.range', List.foldl, lane, getConstant, constants, List.getD_cons_zero, List.getD_cons_succ,
    Nat.reduceAdd, Nat.reduceSub, List.set]
  simp only [kPi, List.range', List.foldl, lane, getConstant, constants, List.getD_cons_zero, List.getD_cons_succ,
    Nat.reduceAdd, Nat.reduceSub, List.set]
  simp only [kChi, chiRow, List.foldl, lane, List.getD_cons_zero, List.getD_cons_succ,
    Nat.reduceAdd, List.set]
  simp only [Keccak.Spec.lanes, Keccak.Spec.round, Keccak.Spec.iota, Keccak.Spec.chi, Keccak.Spec.pi, Keccak.Spec.rho, Keccak.Spec.theta, Keccak.Spec.ofLanes, List.range, List.range.loop, List.map,
    Nat.reduceMod, Nat.reduceDiv, Nat.reduceMul, Nat.reduceAdd, List.getD_cons_zero, List.getD_cons_succ, Nat.reduceEqDiff, and_true, and_false,
    and_self, if_true, if_false]
  simp only [r _ (by decide : 0 < 5) _ (by decide : 0 < 5), r _ (by decide : 1 < 5) _ (by decide : 1 < 5), r _ (by decide : 2 < 5) _ (by decide : 2 < 5),
    r _ (by decide : 3 < 5) _ (by decide : 3 < 5), r _ (by decide : 4 < 5) _ (by decide : 4 < 5),
    r 0 (by decide) 1 (by decide), r 0 (by decide) 2 (by decide), r 0 (by decide) 3 (by decide), r 0 (by decide) 4 (by decide),
    r 1 (by decide) 0 (by decide), r 1 (by decide) 2 (by decide), r 1 (by decide) 3 (by decide), r 1 (by decide) 4 (by decide),
    r 2 (by decide) 0 (by decide), r 2 (by decide) 1 (by decide), r 2 (by decide) 3 (by decide), r 2 (by decide) 4 (by decide),
    r 3 (by decide) 0 (by decide), r 3 (by decide) 1 (by decide), r 3 (by decide) 2 (by decide), r 3 (by decide) 4 (by decide),
    r 4 (by decide) 0 (by decide), r 4 (by decide) 1 (by decide), r 4 (by decide) 2 (by decide), r 4 (by decide) 3 (by decide),
    List.getD_cons_zero, List.getD_cons_succ, rotateLeft_zero]
  simp (discharger := decide) only [rotl64_eq]
  simp only [BitVec.xor_comm (BitVec.rotateLeft _ 1)]

theorem perm_aux (l : List Lane) (h : l.length = 25) (N : Nat) (hN : N ≤ 24) :
    (List.range N).foldl kRound l = Keccak.Spec.lanes ((List.range N).foldl (fun A ir => Keccak.Spec.round ir A) (Keccak.Spec.ofLanes l)) := by
  induction N with
  | zero =>
    obtain ⟨a0, a1, a2, a3, a4, a5, a6, a7, a8, a9, a10, a11, a12, a13, a14, a15, a16, a17, a18, a19, a20, a21, a22, a23, a24, rfl⟩ := list25 l h
    rfl
  | succ N ih =>
    have ih := ih (by omega)
    simp only [List.range_succ, List.foldl_append, List.foldl_cons, List.foldl_nil]
    rw [ih, kRound_spec N (by omega) _ (by simp [Keccak.Spec.lanes])]
    apply Keccak.lanes_same
    apply Keccak.same_round
    exact fun x hx y hy => Keccak.ofLanes_lanes _ x hx y hy

theorem sha3Permutation_eq (l : List Lane) (h : l.length = 25) : sha3Permutation l = Keccak.Spec.F l := perm_aux l h 24 (by omega)

theorem F_length (l : List Lane) : (Keccak.Spec.F l).length = 25 := by simp [Keccak.Spec.F, Keccak.Spec.lanes]

end Verif.CRef
