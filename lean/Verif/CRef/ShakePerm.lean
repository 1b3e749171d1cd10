import Verif.CRef.Shake
import Verif.CRef.KeccakPerm

/-! # `process_block` of `shake.c` is Keccak-f[1600]

The C code keeps some words complemented and does not move the words in the first of two rounds; the lemmas below give, for each step, the words in memory. -/

namespace Verif.CRef.Shake

open Verif.Keccak.Spec (Lane)

theorem not_xor_l (x y : Lane) : ~~~x ^^^ y = ~~~(x ^^^ y) := by
  ext i hi; simp
theorem not_xor_r (x y : Lane) : x ^^^ ~~~y = ~~~(x ^^^ y) := by
  ext i hi; simp
theorem xlc (x y z : Lane) : x ^^^ (y ^^^ z) = y ^^^ (x ^^^ z) := by
  rw [← BitVec.xor_assoc, BitVec.xor_comm x y, BitVec.xor_assoc]
theorem cc {a b : Lane} {l m : List Lane} (h : a = b) (h2 : l = m) : a :: l = b :: m := by rw [h, h2]
/-- Equality of two words, bit by bit, as a function of three words. -/
macro "bits" a:ident b:ident c:ident : tactic => `(tactic| (
  ext i hi
  simp only [BitVec.getElem_xor, BitVec.getElem_or, BitVec.getElem_and, BitVec.getElem_not]
  first
  | done
  | (generalize $a[i] = p
     generalize $b[i] = q
     generalize $c[i] = r
     revert p q r
     decide)))
theorem rot_eq (x : Lane) (n : Nat) (h : n < 64) : (x <<< n) ||| (x >>> (64 - n)) = x.rotateLeft n := by
  rw [BitVec.rotateLeft_def, Nat.mod_eq_of_lt h]
theorem rot63_eq (x : Lane) : (x <<< 1) ||| (x >>> 63) = x.rotateLeft 1 := rot_eq x 1 (by decide)
theorem rot_not (x : Lane) (n : Nat) : (~~~x).rotateLeft n = ~~~(x.rotateLeft n) := by
  ext i hi
  rw [BitVec.getElem_rotateLeft, BitVec.getElem_not, BitVec.getElem_rotateLeft]
  split <;> simp

theorem theta1_0_eq (a0 a1 a2 a3 a4 a5 a6 a7 a8 a9 a10 a11 a12 a13 a14 a15 a16 a17 a18 a19 a20 a21 a22 a23 a24 : Lane) :
    theta1_0 [a0, ~~~(a1), ~~~(a2), a3, a4, a5, a6, a7, ~~~(a8), a9, a10, a11, ~~~(a12), a13, a14, a15, a16, ~~~(a17), a18, a19, ~~~(a20), a21, a22, a23, a24] = ~~~((a4 ^^^ a9 ^^^ a14 ^^^ a19 ^^^ a24) ^^^ (a1 ^^^ a6 ^^^ a11 ^^^ a16 ^^^ a21).rotateLeft 1) := by
  simp only [theta1_0, lane, List.getD_cons_zero, List.getD_cons_succ, rot63_eq, not_xor_l, not_xor_r, rot_not, BitVec.not_not]
  simp only [BitVec.xor_assoc, BitVec.xor_comm, xlc]

theorem theta1_1_eq (a0 a1 a2 a3 a4 a5 a6 a7 a8 a9 a10 a11 a12 a13 a14 a15 a16 a17 a18 a19 a20 a21 a22 a23 a24 : Lane) :
    theta1_1 [a0, ~~~(a1), ~~~(a2), a3, a4, a5, a6, a7, ~~~(a8), a9, a10, a11, ~~~(a12), a13, a14, a15, a16, ~~~(a17), a18, a19, ~~~(a20), a21, a22, a23, a24] = ((a0 ^^^ a5 ^^^ a10 ^^^ a15 ^^^ a20) ^^^ (a2 ^^^ a7 ^^^ a12 ^^^ a17 ^^^ a22).rotateLeft 1) := by
  simp only [theta1_1, lane, List.getD_cons_zero, List.getD_cons_succ, rot63_eq, not_xor_l, not_xor_r, rot_not, BitVec.not_not]
  simp only [BitVec.xor_assoc, BitVec.xor_comm, xlc]

theorem theta1_2_eq (a0 a1 a2 a3 a4 a5 a6 a7 a8 a9 a10 a11 a12 a13 a14 a15 a16 a17 a18 a19 a20 a21 a22 a23 a24 : Lane) :
    theta1_2 [a0, ~~~(a1), ~~~(a2), a3, a4, a5, a6, a7, ~~~(a8), a9, a10, a11, ~~~(a12), a13, a14, a15, a16, ~~~(a17), a18, a19, ~~~(a20), a21, a22, a23, a24] = ((a1 ^^^ a6 ^^^ a11 ^^^ a16 ^^^ a21) ^^^ (a3 ^^^ a8 ^^^ a13 ^^^ a18 ^^^ a23).rotateLeft 1) := by
  simp only [theta1_2, lane, List.getD_cons_zero, List.getD_cons_succ, rot63_eq, not_xor_l, not_xor_r, rot_not, BitVec.not_not]
  simp only [BitVec.xor_assoc, BitVec.xor_comm, xlc]

theorem theta1_3_eq (a0 a1 a2 a3 a4 a5 a6 a7 a8 a9 a10 a11 a12 a13 a14 a15 a16 a17 a18 a19 a20 a21 a22 a23 a24 : Lane) :
    theta1_3 [a0, ~~~(a1), ~~~(a2), a3, a4, a5, a6, a7, ~~~(a8), a9, a10, a11, ~~~(a12), a13, a14, a15, a16, ~~~(a17), a18, a19, ~~~(a20), a21, a22, a23, a24] = ~~~((a2 ^^^ a7 ^^^ a12 ^^^ a17 ^^^ a22) ^^^ (a4 ^^^ a9 ^^^ a14 ^^^ a19 ^^^ a24).rotateLeft 1) := by
  simp only [theta1_3, lane, List.getD_cons_zero, List.getD_cons_succ, rot63_eq, not_xor_l, not_xor_r, rot_not, BitVec.not_not]
  simp only [BitVec.xor_assoc, BitVec.xor_comm, xlc]

theorem theta1_4_eq (a0 a1 a2 a3 a4 a5 a6 a7 a8 a9 a10 a11 a12 a13 a14 a15 a16 a17 a18 a19 a20 a21 a22 a23 a24 : Lane) :
    theta1_4 [a0, ~~~(a1), ~~~(a2), a3, a4, a5, a6, a7, ~~~(a8), a9, a10, a11, ~~~(a12), a13, a14, a15, a16, ~~~(a17), a18, a19, ~~~(a20), a21, a22, a23, a24] = ((a3 ^^^ a8 ^^^ a13 ^^^ a18 ^^^ a23) ^^^ (a0 ^^^ a5 ^^^ a10 ^^^ a15 ^^^ a20).rotateLeft 1) := by
  simp only [theta1_4, lane, List.getD_cons_zero, List.getD_cons_succ, rot63_eq, not_xor_l, not_xor_r, rot_not, BitVec.not_not]
  simp only [BitVec.xor_assoc, BitVec.xor_comm, xlc]

theorem rho1_eq (a0 a1 a2 a3 a4 a5 a6 a7 a8 a9 a10 a11 a12 a13 a14 a15 a16 a17 a18 a19 a20 a21 a22 a23 a24 t0 t1 t2 t3 t4 : Lane) :
    rots1 (xors1 (~~~t0) t1 t2 (~~~t3) t4 [a0, ~~~(a1), ~~~(a2), a3, a4, a5, a6, a7, ~~~(a8), a9, a10, a11, ~~~(a12), a13, a14, a15, a16, ~~~(a17), a18, a19, ~~~(a20), a21, a22, a23, a24]) =
      [~~~((a0 ^^^ t0)), ~~~((a1 ^^^ t1).rotateLeft 1), ~~~((a2 ^^^ t2).rotateLeft 62), ~~~((a3 ^^^ t3).rotateLeft 28), (a4 ^^^ t4).rotateLeft 27, ~~~((a5 ^^^ t0).rotateLeft 36), (a6 ^^^ t1).rotateLeft 44, (a7 ^^^ t2).rotateLeft 6, (a8 ^^^ t3).rotateLeft 55, (a9 ^^^ t4).rotateLeft 20, ~~~((a10 ^^^ t0).rotateLeft 3), (a11 ^^^ t1).rotateLeft 10, ~~~((a12 ^^^ t2).rotateLeft 43), ~~~((a13 ^^^ t3).rotateLeft 25), (a14 ^^^ t4).rotateLeft 39, ~~~((a15 ^^^ t0).rotateLeft 41), (a16 ^^^ t1).rotateLeft 45, ~~~((a17 ^^^ t2).rotateLeft 15), ~~~((a18 ^^^ t3).rotateLeft 21), (a19 ^^^ t4).rotateLeft 8, (a20 ^^^ t0).rotateLeft 18, (a21 ^^^ t1).rotateLeft 2, (a22 ^^^ t2).rotateLeft 61, ~~~((a23 ^^^ t3).rotateLeft 56), (a24 ^^^ t4).rotateLeft 14] := by
  simp only [xors1, rots1, lane, List.set, List.getD_cons_zero, List.getD_cons_succ]
  simp (discharger := decide) only [rot_eq, not_xor_l, not_xor_r, rot_not, BitVec.not_not]

theorem chi1_eq (a0 a1 a2 a3 a4 a5 a6 a7 a8 a9 a10 a11 a12 a13 a14 a15 a16 a17 a18 a19 a20 a21 a22 a23 a24 : Lane) :
    chi1_4 (chi1_3 (chi1_2 (chi1_1 (chi1_0 [~~~(a0), ~~~(a1), ~~~(a2), ~~~(a3), a4, ~~~(a5), a6, a7, a8, a9, ~~~(a10), a11, ~~~(a12), ~~~(a13), a14, ~~~(a15), a16, ~~~(a17), ~~~(a18), a19, a20, a21, a22, ~~~(a23), a24])))) =
      [a0 ^^^ (~~~a6 &&& a12), a1 ^^^ (~~~a7 &&& a13), ~~~(a2 ^^^ (~~~a8 &&& a14)), a3 ^^^ (~~~a9 &&& a10), a4 ^^^ (~~~a5 &&& a11), a5 ^^^ (~~~a11 &&& a17), ~~~(a6 ^^^ (~~~a12 &&& a18)), a7 ^^^ (~~~a13 &&& a19), a8 ^^^ (~~~a14 &&& a15), a9 ^^^ (~~~a10 &&& a16), a10 ^^^ (~~~a16 &&& a22), ~~~(a11 ^^^ (~~~a17 &&& a23)), ~~~(a12 ^^^ (~~~a18 &&& a24)), ~~~(a13 ^^^ (~~~a19 &&& a20)), a14 ^^^ (~~~a15 &&& a21), a15 ^^^ (~~~a21 &&& a2), ~~~(a16 ^^^ (~~~a22 &&& a3)), a17 ^^^ (~~~a23 &&& a4), a18 ^^^ (~~~a24 &&& a0), a19 ^^^ (~~~a20 &&& a1), a20 ^^^ (~~~a1 &&& a7), a21 ^^^ (~~~a2 &&& a8), a22 ^^^ (~~~a3 &&& a9), a23 ^^^ (~~~a4 &&& a5), a24 ^^^ (~~~a0 &&& a6)] := by
  simp only [chi1_0, chi1_1, chi1_2, chi1_3, chi1_4, lane, List.set, List.getD_cons_zero, List.getD_cons_succ]
  refine cc ?_ (cc ?_ (cc ?_ (cc ?_ (cc ?_ (cc ?_ (cc ?_ (cc ?_ (cc ?_ (cc ?_ (cc ?_ (cc ?_ (cc ?_ (cc ?_ (cc ?_ (cc ?_ (cc ?_ (cc ?_ (cc ?_ (cc ?_ (cc ?_ (cc ?_ (cc ?_ (cc ?_ (cc ?_ rfl))))))))))))))))))))))))
  · bits a0 a6 a12
  · bits a1 a7 a13
  · bits a2 a8 a14
  · bits a3 a9 a10
  · bits a4 a5 a11
  · bits a5 a11 a17
  · bits a6 a12 a18
  · bits a7 a13 a19
  · bits a8 a14 a15
  · bits a9 a10 a16
  · bits a10 a16 a22
  · bits a11 a17 a23
  · bits a12 a18 a24
  · bits a13 a19 a20
  · bits a14 a15 a21
  · bits a15 a21 a2
  · bits a16 a22 a3
  · bits a17 a23 a4
  · bits a18 a24 a0
  · bits a19 a20 a1
  · bits a20 a1 a7
  · bits a21 a2 a8
  · bits a22 a3 a9
  · bits a23 a4 a5
  · bits a24 a0 a6

theorem theta2_0_eq (a0 a1 a2 a3 a4 a5 a6 a7 a8 a9 a10 a11 a12 a13 a14 a15 a16 a17 a18 a19 a20 a21 a22 a23 a24 : Lane) :
    theta2_0 [a0, a10, ~~~(a20), a5, a15, a16, ~~~(a1), a11, a21, a6, a7, ~~~(a17), ~~~(a2), ~~~(a12), a22, a23, ~~~(a8), a18, a3, a13, a14, a24, a9, a19, a4] = ~~~((a4 ^^^ a9 ^^^ a14 ^^^ a19 ^^^ a24) ^^^ (a1 ^^^ a6 ^^^ a11 ^^^ a16 ^^^ a21).rotateLeft 1) := by
  simp only [theta2_0, lane, List.getD_cons_zero, List.getD_cons_succ, rot63_eq, not_xor_l, not_xor_r, rot_not, BitVec.not_not]
  simp only [BitVec.xor_assoc, BitVec.xor_comm, xlc]

theorem theta2_1_eq (a0 a1 a2 a3 a4 a5 a6 a7 a8 a9 a10 a11 a12 a13 a14 a15 a16 a17 a18 a19 a20 a21 a22 a23 a24 : Lane) :
    theta2_1 [a0, a10, ~~~(a20), a5, a15, a16, ~~~(a1), a11, a21, a6, a7, ~~~(a17), ~~~(a2), ~~~(a12), a22, a23, ~~~(a8), a18, a3, a13, a14, a24, a9, a19, a4] = ((a0 ^^^ a5 ^^^ a10 ^^^ a15 ^^^ a20) ^^^ (a2 ^^^ a7 ^^^ a12 ^^^ a17 ^^^ a22).rotateLeft 1) := by
  simp only [theta2_1, lane, List.getD_cons_zero, List.getD_cons_succ, rot63_eq, not_xor_l, not_xor_r, rot_not, BitVec.not_not]
  simp only [BitVec.xor_assoc, BitVec.xor_comm, xlc]

theorem theta2_2_eq (a0 a1 a2 a3 a4 a5 a6 a7 a8 a9 a10 a11 a12 a13 a14 a15 a16 a17 a18 a19 a20 a21 a22 a23 a24 : Lane) :
    theta2_2 [a0, a10, ~~~(a20), a5, a15, a16, ~~~(a1), a11, a21, a6, a7, ~~~(a17), ~~~(a2), ~~~(a12), a22, a23, ~~~(a8), a18, a3, a13, a14, a24, a9, a19, a4] = ((a1 ^^^ a6 ^^^ a11 ^^^ a16 ^^^ a21) ^^^ (a3 ^^^ a8 ^^^ a13 ^^^ a18 ^^^ a23).rotateLeft 1) := by
  simp only [theta2_2, lane, List.getD_cons_zero, List.getD_cons_succ, rot63_eq, not_xor_l, not_xor_r, rot_not, BitVec.not_not]
  simp only [BitVec.xor_assoc, BitVec.xor_comm, xlc]

theorem theta2_3_eq (a0 a1 a2 a3 a4 a5 a6 a7 a8 a9 a10 a11 a12 a13 a14 a15 a16 a17 a18 a19 a20 a21 a22 a23 a24 : Lane) :
    theta2_3 [a0, a10, ~~~(a20), a5, a15, a16, ~~~(a1), a11, a21, a6, a7, ~~~(a17), ~~~(a2), ~~~(a12), a22, a23, ~~~(a8), a18, a3, a13, a14, a24, a9, a19, a4] = ~~~((a2 ^^^ a7 ^^^ a12 ^^^ a17 ^^^ a22) ^^^ (a4 ^^^ a9 ^^^ a14 ^^^ a19 ^^^ a24).rotateLeft 1) := by
  simp only [theta2_3, lane, List.getD_cons_zero, List.getD_cons_succ, rot63_eq, not_xor_l, not_xor_r, rot_not, BitVec.not_not]
  simp only [BitVec.xor_assoc, BitVec.xor_comm, xlc]

theorem theta2_4_eq (a0 a1 a2 a3 a4 a5 a6 a7 a8 a9 a10 a11 a12 a13 a14 a15 a16 a17 a18 a19 a20 a21 a22 a23 a24 : Lane) :
    theta2_4 [a0, a10, ~~~(a20), a5, a15, a16, ~~~(a1), a11, a21, a6, a7, ~~~(a17), ~~~(a2), ~~~(a12), a22, a23, ~~~(a8), a18, a3, a13, a14, a24, a9, a19, a4] = ((a3 ^^^ a8 ^^^ a13 ^^^ a18 ^^^ a23) ^^^ (a0 ^^^ a5 ^^^ a10 ^^^ a15 ^^^ a20).rotateLeft 1) := by
  simp only [theta2_4, lane, List.getD_cons_zero, List.getD_cons_succ, rot63_eq, not_xor_l, not_xor_r, rot_not, BitVec.not_not]
  simp only [BitVec.xor_assoc, BitVec.xor_comm, xlc]

theorem rho2_eq (a0 a1 a2 a3 a4 a5 a6 a7 a8 a9 a10 a11 a12 a13 a14 a15 a16 a17 a18 a19 a20 a21 a22 a23 a24 t0 t1 t2 t3 t4 : Lane) :
    rots2 (xors2 (~~~t0) t1 t2 (~~~t3) t4 [a0, a10, ~~~(a20), a5, a15, a16, ~~~(a1), a11, a21, a6, a7, ~~~(a17), ~~~(a2), ~~~(a12), a22, a23, ~~~(a8), a18, a3, a13, a14, a24, a9, a19, a4]) =
      [~~~((a0 ^^^ t0)), ~~~((a10 ^^^ t0).rotateLeft 3), (a20 ^^^ t0).rotateLeft 18, ~~~((a5 ^^^ t0).rotateLeft 36), ~~~((a15 ^^^ t0).rotateLeft 41), (a16 ^^^ t1).rotateLeft 45, ~~~((a1 ^^^ t1).rotateLeft 1), (a11 ^^^ t1).rotateLeft 10, (a21 ^^^ t1).rotateLeft 2, (a6 ^^^ t1).rotateLeft 44, (a7 ^^^ t2).rotateLeft 6, ~~~((a17 ^^^ t2).rotateLeft 15), ~~~((a2 ^^^ t2).rotateLeft 62), ~~~((a12 ^^^ t2).rotateLeft 43), (a22 ^^^ t2).rotateLeft 61, ~~~((a23 ^^^ t3).rotateLeft 56), (a8 ^^^ t3).rotateLeft 55, ~~~((a18 ^^^ t3).rotateLeft 21), ~~~((a3 ^^^ t3).rotateLeft 28), ~~~((a13 ^^^ t3).rotateLeft 25), (a14 ^^^ t4).rotateLeft 39, (a24 ^^^ t4).rotateLeft 14, (a9 ^^^ t4).rotateLeft 20, (a19 ^^^ t4).rotateLeft 8, (a4 ^^^ t4).rotateLeft 27] := by
  simp only [xors2, rots2, lane, List.set, List.getD_cons_zero, List.getD_cons_succ]
  simp (discharger := decide) only [rot_eq, not_xor_l, not_xor_r, rot_not, BitVec.not_not]

theorem chi2_eq (a0 a1 a2 a3 a4 a5 a6 a7 a8 a9 a10 a11 a12 a13 a14 a15 a16 a17 a18 a19 a20 a21 a22 a23 a24 : Lane) :
    chi2_4 (chi2_3 (chi2_2 (chi2_1 (chi2_0 [~~~(a0), ~~~(a10), a20, ~~~(a5), ~~~(a15), a16, ~~~(a1), a11, a21, a6, a7, ~~~(a17), ~~~(a2), ~~~(a12), a22, ~~~(a23), a8, ~~~(a18), ~~~(a3), ~~~(a13), a14, a24, a9, a19, a4])))) =
      [a0 ^^^ (~~~a6 &&& a12), a10 ^^^ (~~~a16 &&& a22), a20 ^^^ (~~~a1 &&& a7), a5 ^^^ (~~~a11 &&& a17), a15 ^^^ (~~~a21 &&& a2), ~~~(a16 ^^^ (~~~a22 &&& a3)), a1 ^^^ (~~~a7 &&& a13), ~~~(a11 ^^^ (~~~a17 &&& a23)), a21 ^^^ (~~~a2 &&& a8), ~~~(a6 ^^^ (~~~a12 &&& a18)), a7 ^^^ (~~~a13 &&& a19), a17 ^^^ (~~~a23 &&& a4), ~~~(a2 ^^^ (~~~a8 &&& a14)), ~~~(a12 ^^^ (~~~a18 &&& a24)), a22 ^^^ (~~~a3 &&& a9), a23 ^^^ (~~~a4 &&& a5), a8 ^^^ (~~~a14 &&& a15), a18 ^^^ (~~~a24 &&& a0), a3 ^^^ (~~~a9 &&& a10), ~~~(a13 ^^^ (~~~a19 &&& a20)), a14 ^^^ (~~~a15 &&& a21), a24 ^^^ (~~~a0 &&& a6), a9 ^^^ (~~~a10 &&& a16), a19 ^^^ (~~~a20 &&& a1), a4 ^^^ (~~~a5 &&& a11)] := by
  simp only [chi2_0, chi2_1, chi2_2, chi2_3, chi2_4, lane, List.set, List.getD_cons_zero, List.getD_cons_succ]
  refine cc ?_ (cc ?_ (cc ?_ (cc ?_ (cc ?_ (cc ?_ (cc ?_ (cc ?_ (cc ?_ (cc ?_ (cc ?_ (cc ?_ (cc ?_ (cc ?_ (cc ?_ (cc ?_ (cc ?_ (cc ?_ (cc ?_ (cc ?_ (cc ?_ (cc ?_ (cc ?_ (cc ?_ (cc ?_ rfl))))))))))))))))))))))))
  · bits a0 a6 a12
  · bits a10 a16 a22
  · bits a20 a1 a7
  · bits a5 a11 a17
  · bits a15 a21 a2
  · bits a16 a22 a3
  · bits a1 a7 a13
  · bits a11 a17 a23
  · bits a21 a2 a8
  · bits a6 a12 a18
  · bits a7 a13 a19
  · bits a17 a23 a4
  · bits a2 a8 a14
  · bits a12 a18 a24
  · bits a22 a3 a9
  · bits a23 a4 a5
  · bits a8 a14 a15
  · bits a18 a24 a0
  · bits a3 a9 a10
  · bits a13 a19 a20
  · bits a14 a15 a21
  · bits a24 a0 a6
  · bits a9 a10 a16
  · bits a19 a20 a1
  · bits a4 a5 a11

/-- The words in memory when the logical state is `g`. -/
def inPlace (g : Nat → Lane) : List Lane :=
  [g 0, ~~~(g 1), ~~~(g 2), g 3, g 4, g 5, g 6, g 7, ~~~(g 8), g 9, g 10, g 11, ~~~(g 12), g 13, g 14, g 15, g 16, ~~~(g 17), g 18, g 19, ~~~(g 20), g 21, g 22, g 23, g 24]

/-- The words in memory when the logical state is `g`. -/
def afterOne (g : Nat → Lane) : List Lane :=
  [g 0, g 10, ~~~(g 20), g 5, g 15, g 16, ~~~(g 1), g 11, g 21, g 6, g 7, ~~~(g 17), ~~~(g 2), ~~~(g 12), g 22, g 23, ~~~(g 8), g 18, g 3, g 13, g 14, g 24, g 9, g 19, g 4]

/-- The words in memory when the logical state is `g`. -/
def afterTwo (g : Nat → Lane) : List Lane :=
  [g 0, g 7, g 14, g 16, g 23, ~~~(g 8), g 10, ~~~(g 17), g 24, ~~~(g 1), g 11, g 18, ~~~(g 20), ~~~(g 2), g 9, g 19, g 21, g 3, g 5, ~~~(g 12), g 22, g 4, g 6, g 13, g 15]

/-- One logical round on the lanes `g`. -/
def next (ir : Nat) (g : Nat → Lane) : Nat → Lane := fun i => Keccak.Spec.round ir (fun x y => g (5 * y + x)) (i % 5) (i / 5)

theorem rhoAll : ∀ x < 5, ∀ y < 5, Keccak.Spec.rhoOffset x y =
    (([[0, 1, 62, 28, 27], [36, 44, 6, 55, 20], [3, 10, 43, 25, 39], [41, 45, 15, 21, 8], [18, 2, 61, 56, 14]] : List (List Nat)).getD y []).getD x 0 :=
  fun x hx y hy => Keccak.rhoTable y hy x hx

theorem round1_eq (ir : Nat) (g : Nat → Lane) :
    iota1 (Keccak.Spec.RC ir) (chi1_4 (chi1_3 (chi1_2 (chi1_1 (chi1_0 (rots1 (xors1 (theta1_0 (inPlace g)) (theta1_1 (inPlace g)) (theta1_2 (inPlace g)) (theta1_3 (inPlace g)) (theta1_4 (inPlace g)) (inPlace g)))))))) =
      afterOne (next ir g) := by
  unfold inPlace
  rw [theta1_0_eq, theta1_1_eq, theta1_2_eq, theta1_3_eq, theta1_4_eq, rho1_eq, chi1_eq]
  simp only [iota1, lane, List.set, List.getD_cons_zero]
  simp only [afterOne, next, Keccak.Spec.round, Keccak.Spec.iota, Keccak.Spec.chi, Keccak.Spec.pi, Keccak.Spec.rho, Keccak.Spec.theta, 
    Nat.reduceMod, Nat.reduceDiv, Nat.reduceMul, Nat.reduceAdd, Nat.reduceEqDiff, and_true, and_false, and_self, if_true, if_false]
  simp only [rhoAll 0 (by decide) 0 (by decide), rhoAll 0 (by decide) 1 (by decide), rhoAll 0 (by decide) 2 (by decide), rhoAll 0 (by decide) 3 (by decide), rhoAll 0 (by decide) 4 (by decide), rhoAll 1 (by decide) 0 (by decide), rhoAll 1 (by decide) 1 (by decide), rhoAll 1 (by decide) 2 (by decide), rhoAll 1 (by decide) 3 (by decide), rhoAll 1 (by decide) 4 (by decide), rhoAll 2 (by decide) 0 (by decide), rhoAll 2 (by decide) 1 (by decide), rhoAll 2 (by decide) 2 (by decide), rhoAll 2 (by decide) 3 (by decide), rhoAll 2 (by decide) 4 (by decide), rhoAll 3 (by decide) 0 (by decide), rhoAll 3 (by decide) 1 (by decide), rhoAll 3 (by decide) 2 (by decide), rhoAll 3 (by decide) 3 (by decide), rhoAll 3 (by decide) 4 (by decide), rhoAll 4 (by decide) 0 (by decide), rhoAll 4 (by decide) 1 (by decide), rhoAll 4 (by decide) 2 (by decide), rhoAll 4 (by decide) 3 (by decide), rhoAll 4 (by decide) 4 (by decide), List.getD_cons_zero, List.getD_cons_succ, Keccak.rotateLeft_zero]

theorem round2_eq (ir : Nat) (g : Nat → Lane) :
    iota2 (Keccak.Spec.RC ir) (chi2_4 (chi2_3 (chi2_2 (chi2_1 (chi2_0 (rots2 (xors2 (theta2_0 (afterOne g)) (theta2_1 (afterOne g)) (theta2_2 (afterOne g)) (theta2_3 (afterOne g)) (theta2_4 (afterOne g)) (afterOne g)))))))) =
      afterTwo (next ir g) := by
  unfold afterOne
  rw [theta2_0_eq, theta2_1_eq, theta2_2_eq, theta2_3_eq, theta2_4_eq, rho2_eq, chi2_eq]
  simp only [iota2, lane, List.set, List.getD_cons_zero]
  simp only [afterTwo, next, Keccak.Spec.round, Keccak.Spec.iota, Keccak.Spec.chi, Keccak.Spec.pi, Keccak.Spec.rho, Keccak.Spec.theta, 
    Nat.reduceMod, Nat.reduceDiv, Nat.reduceMul, Nat.reduceAdd, Nat.reduceEqDiff, and_true, and_false, and_self, if_true, if_false]
  simp only [rhoAll 0 (by decide) 0 (by decide), rhoAll 0 (by decide) 1 (by decide), rhoAll 0 (by decide) 2 (by decide), rhoAll 0 (by decide) 3 (by decide), rhoAll 0 (by decide) 4 (by decide), rhoAll 1 (by decide) 0 (by decide), rhoAll 1 (by decide) 1 (by decide), rhoAll 1 (by decide) 2 (by decide), rhoAll 1 (by decide) 3 (by decide), rhoAll 1 (by decide) 4 (by decide), rhoAll 2 (by decide) 0 (by decide), rhoAll 2 (by decide) 1 (by decide), rhoAll 2 (by decide) 2 (by decide), rhoAll 2 (by decide) 3 (by decide), rhoAll 2 (by decide) 4 (by decide), rhoAll 3 (by decide) 0 (by decide), rhoAll 3 (by decide) 1 (by decide), rhoAll 3 (by decide) 2 (by decide), rhoAll 3 (by decide) 3 (by decide), rhoAll 3 (by decide) 4 (by decide), rhoAll 4 (by decide) 0 (by decide), rhoAll 4 (by decide) 1 (by decide), rhoAll 4 (by decide) 2 (by decide), rhoAll 4 (by decide) 3 (by decide), rhoAll 4 (by decide) 4 (by decide), List.getD_cons_zero, List.getD_cons_succ, Keccak.rotateLeft_zero]

theorem shuffle_eq (g : Nat → Lane) : shuffle (afterTwo g) = inPlace g := by
  simp only [shuffle, afterTwo, inPlace, lane, List.set, List.getD_cons_zero, List.getD_cons_succ]

theorem RC_eq : ∀ i < 24, BitVec.ofNat 64 (RC.getD i 0) = Keccak.Spec.RC i := by decide +kernel

theorem twoRounds_eq (i : Nat) (hi : i < 12) (g : Nat → Lane) : twoRounds (2 * i) (inPlace g) = inPlace (next (2 * i + 1) (next (2 * i) g)) := by
  unfold twoRounds
  dsimp only
  rw [RC_eq _ (by omega), RC_eq _ (by omega), round1_eq, round2_eq, shuffle_eq]
  rfl

theorem invert_eq (g : Nat → Lane) : invert ((List.range 25).map g) = inPlace g := rfl

theorem invert_inPlace (g : Nat → Lane) : invert (inPlace g) = (List.range 25).map g := by
  simp only [invert, inPlace, lane, List.foldl, List.set, List.getD_cons_zero, List.getD_cons_succ, BitVec.not_not]
  rfl

theorem next_same (ir : Nat) (A : Keccak.Spec.State) (g : Nat → Lane) (h : ∀ x < 5, ∀ y < 5, A x y = g (5 * y + x)) :
    ∀ x < 5, ∀ y < 5, Keccak.Spec.round ir A x y = next ir g (5 * y + x) := by
  intro x hx y hy
  unfold next
  rw [show (5 * y + x) % 5 = x by omega, show (5 * y + x) / 5 = y by omega]
  exact Keccak.same_round ir h x hx y hy

theorem rounds_aux (g : Nat → Lane) (N : Nat) (hN : N ≤ 12) : ∃ g', (List.range N).foldl (fun A i => twoRounds (2 * i) A) (inPlace g) = inPlace g' ∧
    ∀ x < 5, ∀ y < 5, (List.range (2 * N)).foldl (fun A ir => Keccak.Spec.round ir A) (fun x y => g (5 * y + x)) x y = g' (5 * y + x) := by
  induction N with
  | zero => exact ⟨g, rfl, fun x _ y _ => rfl⟩
  | succ N ih =>
    obtain ⟨g', h1, h2⟩ := ih (by omega)
    refine ⟨next (2 * N + 1) (next (2 * N) g'), ?_, ?_⟩
    · rw [List.range_succ, List.foldl_append, h1]
      simp only [List.foldl_cons, List.foldl_nil]
      exact twoRounds_eq N (by omega) g'
    · rw [show 2 * (N + 1) = 2 * N + 1 + 1 by omega, List.range_succ, List.foldl_append, List.range_succ, List.foldl_append]
      simp only [List.foldl_cons, List.foldl_nil]
      exact next_same _ _ _ (next_same _ _ _ h2)

/-- `process_block` is Keccak-f[1600]. -/
theorem processBlock_eq (l : List Lane) (h : l.length = 25) : processBlock l = Keccak.Spec.F l := by
  have e : l = (List.range 25).map fun i => l.getD i 0#64 := by
    apply List.ext_getElem
    · rw [h, List.length_map, List.length_range]
    · intro i h1 h2
      rw [List.getElem_map, List.getElem_range, List.getD_eq_getElem?_getD, List.getElem?_eq_getElem h1]
      rfl
  obtain ⟨g', h1, h2⟩ := rounds_aux (fun i => l.getD i 0#64) 12 (by omega)
  unfold processBlock
  conv => lhs; rw [e]
  rw [invert_eq, h1, invert_inPlace]
  unfold Keccak.Spec.F Keccak.Spec.lanes
  apply List.map_congr_left
  intro i hi
  have : i < 25 := List.mem_range.mp hi
  have := h2 (i % 5) (by omega) (i / 5) (by omega)
  rw [show 5 * (i / 5) + i % 5 = i by omega] at this
  exact this.symm

end Verif.CRef.Shake
