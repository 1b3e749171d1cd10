import Verif.Keccak.Props

/-! # Keccak-f on natural numbers: the same permutation as `F1600`, for evaluation by the kernel -/

namespace Verif.Keccak

/-- Rotation of a 64-bit word held as a natural number. -/
def nrol (x s : Nat) : Nat := (x <<< s) % 18446744073709551616 ^^^ x >>> (64 - s)

/-- One round of Keccak-f on 25 words. -/
def nround (rc : Nat) : List Nat → List Nat
  | [a0, a1, a2, a3, a4, a5, a6, a7, a8, a9, a10, a11, a12, a13, a14, a15, a16, a17, a18, a19, a20, a21, a22, a23, a24] =>
    let c0 := a0 ^^^ a5 ^^^ a10 ^^^ a15 ^^^ a20
    let c1 := a1 ^^^ a6 ^^^ a11 ^^^ a16 ^^^ a21
    let c2 := a2 ^^^ a7 ^^^ a12 ^^^ a17 ^^^ a22
    let c3 := a3 ^^^ a8 ^^^ a13 ^^^ a18 ^^^ a23
    let c4 := a4 ^^^ a9 ^^^ a14 ^^^ a19 ^^^ a24
    let d0 := c4 ^^^ nrol c1 1
    let d1 := c0 ^^^ nrol c2 1
    let d2 := c1 ^^^ nrol c3 1
    let d3 := c2 ^^^ nrol c4 1
    let d4 := c3 ^^^ nrol c0 1
    let b0 := (a0 ^^^ d0)
    let b1 := nrol (a6 ^^^ d1) 44
    let b2 := nrol (a12 ^^^ d2) 43
    let b3 := nrol (a18 ^^^ d3) 21
    let b4 := nrol (a24 ^^^ d4) 14
    let b5 := nrol (a3 ^^^ d3) 28
    let b6 := nrol (a9 ^^^ d4) 20
    let b7 := nrol (a10 ^^^ d0) 3
    let b8 := nrol (a16 ^^^ d1) 45
    let b9 := nrol (a22 ^^^ d2) 61
    let b10 := nrol (a1 ^^^ d1) 1
    let b11 := nrol (a7 ^^^ d2) 6
    let b12 := nrol (a13 ^^^ d3) 25
    let b13 := nrol (a19 ^^^ d4) 8
    let b14 := nrol (a20 ^^^ d0) 18
    let b15 := nrol (a4 ^^^ d4) 27
    let b16 := nrol (a5 ^^^ d0) 36
    let b17 := nrol (a11 ^^^ d1) 10
    let b18 := nrol (a17 ^^^ d2) 15
    let b19 := nrol (a23 ^^^ d3) 56
    let b20 := nrol (a2 ^^^ d2) 62
    let b21 := nrol (a8 ^^^ d3) 55
    let b22 := nrol (a14 ^^^ d4) 39
    let b23 := nrol (a15 ^^^ d0) 41
    let b24 := nrol (a21 ^^^ d1) 2
    [(b0 ^^^ ((18446744073709551615 - b1) &&& b2)) ^^^ rc, b1 ^^^ ((18446744073709551615 - b2) &&& b3), b2 ^^^ ((18446744073709551615 - b3) &&& b4), b3 ^^^ ((18446744073709551615 - b4) &&& b0), b4 ^^^ ((18446744073709551615 - b0) &&& b1), b5 ^^^ ((18446744073709551615 - b6) &&& b7), b6 ^^^ ((18446744073709551615 - b7) &&& b8), b7 ^^^ ((18446744073709551615 - b8) &&& b9), b8 ^^^ ((18446744073709551615 - b9) &&& b5), b9 ^^^ ((18446744073709551615 - b5) &&& b6), b10 ^^^ ((18446744073709551615 - b11) &&& b12), b11 ^^^ ((18446744073709551615 - b12) &&& b13), b12 ^^^ ((18446744073709551615 - b13) &&& b14), b13 ^^^ ((18446744073709551615 - b14) &&& b10), b14 ^^^ ((18446744073709551615 - b10) &&& b11), b15 ^^^ ((18446744073709551615 - b16) &&& b17), b16 ^^^ ((18446744073709551615 - b17) &&& b18), b17 ^^^ ((18446744073709551615 - b18) &&& b19), b18 ^^^ ((18446744073709551615 - b19) &&& b15), b19 ^^^ ((18446744073709551615 - b15) &&& b16), b20 ^^^ ((18446744073709551615 - b21) &&& b22), b21 ^^^ ((18446744073709551615 - b22) &&& b23), b22 ^^^ ((18446744073709551615 - b23) &&& b24), b23 ^^^ ((18446744073709551615 - b24) &&& b20), b24 ^^^ ((18446744073709551615 - b20) &&& b21)]
  | _ => []

/-- Keccak-f on 25 words. -/
def nF (l : List Nat) : List Nat := (List.range 24).foldl (fun l i => nround (keccakRc.getD i 0) l) l

/-- The same round on bit vectors. -/
def bround (rc : Lane) : List Lane → List Lane
  | [a0, a1, a2, a3, a4, a5, a6, a7, a8, a9, a10, a11, a12, a13, a14, a15, a16, a17, a18, a19, a20, a21, a22, a23, a24] =>
    let c0 := a0 ^^^ a5 ^^^ a10 ^^^ a15 ^^^ a20
    let c1 := a1 ^^^ a6 ^^^ a11 ^^^ a16 ^^^ a21
    let c2 := a2 ^^^ a7 ^^^ a12 ^^^ a17 ^^^ a22
    let c3 := a3 ^^^ a8 ^^^ a13 ^^^ a18 ^^^ a23
    let c4 := a4 ^^^ a9 ^^^ a14 ^^^ a19 ^^^ a24
    let d0 := c4 ^^^ rol c1 1
    let d1 := c0 ^^^ rol c2 1
    let d2 := c1 ^^^ rol c3 1
    let d3 := c2 ^^^ rol c4 1
    let d4 := c3 ^^^ rol c0 1
    let b0 := (a0 ^^^ d0)
    let b1 := rol (a6 ^^^ d1) 44
    let b2 := rol (a12 ^^^ d2) 43
    let b3 := rol (a18 ^^^ d3) 21
    let b4 := rol (a24 ^^^ d4) 14
    let b5 := rol (a3 ^^^ d3) 28
    let b6 := rol (a9 ^^^ d4) 20
    let b7 := rol (a10 ^^^ d0) 3
    let b8 := rol (a16 ^^^ d1) 45
    let b9 := rol (a22 ^^^ d2) 61
    let b10 := rol (a1 ^^^ d1) 1
    let b11 := rol (a7 ^^^ d2) 6
    let b12 := rol (a13 ^^^ d3) 25
    let b13 := rol (a19 ^^^ d4) 8
    let b14 := rol (a20 ^^^ d0) 18
    let b15 := rol (a4 ^^^ d4) 27
    let b16 := rol (a5 ^^^ d0) 36
    let b17 := rol (a11 ^^^ d1) 10
    let b18 := rol (a17 ^^^ d2) 15
    let b19 := rol (a23 ^^^ d3) 56
    let b20 := rol (a2 ^^^ d2) 62
    let b21 := rol (a8 ^^^ d3) 55
    let b22 := rol (a14 ^^^ d4) 39
    let b23 := rol (a15 ^^^ d0) 41
    let b24 := rol (a21 ^^^ d1) 2
    [(b0 ^^^ ((~~~b1) &&& b2)) ^^^ rc, b1 ^^^ ((~~~b2) &&& b3), b2 ^^^ ((~~~b3) &&& b4), b3 ^^^ ((~~~b4) &&& b0), b4 ^^^ ((~~~b0) &&& b1), b5 ^^^ ((~~~b6) &&& b7), b6 ^^^ ((~~~b7) &&& b8), b7 ^^^ ((~~~b8) &&& b9), b8 ^^^ ((~~~b9) &&& b5), b9 ^^^ ((~~~b5) &&& b6), b10 ^^^ ((~~~b11) &&& b12), b11 ^^^ ((~~~b12) &&& b13), b12 ^^^ ((~~~b13) &&& b14), b13 ^^^ ((~~~b14) &&& b10), b14 ^^^ ((~~~b10) &&& b11), b15 ^^^ ((~~~b16) &&& b17), b16 ^^^ ((~~~b17) &&& b18), b17 ^^^ ((~~~b18) &&& b19), b18 ^^^ ((~~~b19) &&& b15), b19 ^^^ ((~~~b15) &&& b16), b20 ^^^ ((~~~b21) &&& b22), b21 ^^^ ((~~~b22) &&& b23), b22 ^^^ ((~~~b23) &&& b24), b23 ^^^ ((~~~b24) &&& b20), b24 ^^^ ((~~~b20) &&& b21)]
  | _ => []

theorem round_explicit (rc : Lane) (a0 a1 a2 a3 a4 a5 a6 a7 a8 a9 a10 a11 a12 a13 a14 a15 a16 a17 a18 a19 a20 a21 a22 a23 a24 : Lane) : round rc [a0, a1, a2, a3, a4, a5, a6, a7, a8, a9, a10, a11, a12, a13, a14, a15, a16, a17, a18, a19, a20, a21, a22, a23, a24] = bround rc [a0, a1, a2, a3, a4, a5, a6, a7, a8, a9, a10, a11, a12, a13, a14, a15, a16, a17, a18, a19, a20, a21, a22, a23, a24] := by
  simp only [round, List.range, List.range.loop, List.map, List.foldl, ln, keccakPi, keccakRho, List.getD_cons_zero, List.getD_cons_succ,
    Nat.reduceAdd, Nat.reduceMod, List.set, BitVec.zero_xor]
  simp only [bround]

theorem nrol_eq (x : Lane) (s : Nat) : (rol x s).toNat = nrol x.toNat s := by
  unfold rol nrol
  rw [BitVec.toNat_xor, BitVec.toNat_shiftLeft, BitVec.toNat_ushiftRight]

theorem not_toNat (x : Lane) : (~~~x).toNat = 18446744073709551615 - x.toNat := by
  rw [BitVec.toNat_not]

theorem bround_nat (rc : Lane) (a0 a1 a2 a3 a4 a5 a6 a7 a8 a9 a10 a11 a12 a13 a14 a15 a16 a17 a18 a19 a20 a21 a22 a23 a24 : Lane) : (bround rc [a0, a1, a2, a3, a4, a5, a6, a7, a8, a9, a10, a11, a12, a13, a14, a15, a16, a17, a18, a19, a20, a21, a22, a23, a24]).map BitVec.toNat = nround rc.toNat ([a0, a1, a2, a3, a4, a5, a6, a7, a8, a9, a10, a11, a12, a13, a14, a15, a16, a17, a18, a19, a20, a21, a22, a23, a24].map BitVec.toNat) := by
  unfold bround nround
  simp only [List.map_cons, List.map_nil, BitVec.toNat_xor, BitVec.toNat_and, not_toNat, nrol_eq]

theorem round_nat (rc : Lane) (l : List Lane) (h : l.length = 25) : (round rc l).map BitVec.toNat = nround rc.toNat (l.map BitVec.toNat) := by
  obtain ⟨a0, a1, a2, a3, a4, a5, a6, a7, a8, a9, a10, a11, a12, a13, a14, a15, a16, a17, a18, a19, a20, a21, a22, a23, a24, rfl⟩ := list25 l h
  rw [round_explicit, bround_nat]

theorem rc_lt : ∀ i < 24, keccakRc.getD i 0 < 2 ^ 64 := by decide +kernel

theorem F1600_nat (l : List Lane) (h : l.length = 25) : (F1600 l).map BitVec.toNat = nF (l.map BitVec.toNat) := by
  unfold F1600 nF
  have key : ∀ N ≤ 24, ((List.range N).foldl (fun state i => round (BitVec.ofNat 64 (keccakRc.getD i 0)) state) l).map BitVec.toNat =
      (List.range N).foldl (fun l i => nround (keccakRc.getD i 0) l) (l.map BitVec.toNat) := by
    intro N hN
    induction N with
    | zero => rfl
    | succ N ih =>
      have ih := ih (by omega)
      have hl := (F1600_aux l h N (by omega)).2
      simp only [List.range_succ, List.foldl_append, List.foldl_cons, List.foldl_nil]
      rw [round_nat _ _ hl, ih, BitVec.toNat_ofNat, Nat.mod_eq_of_lt (rc_lt N (by omega))]
  exact key 24 (Nat.le_refl _)

/-- The bytes of 25 words. -/
def nbytes (l : List Nat) : List Nat := l.flatMap fun w => (List.range 8).map fun k => w / 256 ^ k % 256

theorem nbytes_eq (l : List Lane) : lanesToBytes l = nbytes (l.map BitVec.toNat) := by
  unfold lanesToBytes nbytes
  rw [List.flatMap_map]

/-- The words of a block. -/
def nlanes (b : List Nat) : List Nat := (List.range 25).map fun i => (List.range 8).foldl (fun a k => a + b.getD (8 * i + k) 0 * 256 ^ k) 0 % 2 ^ 64

theorem nlanes_eq (P : List Nat) : (Spec.bytesToLanes P).map BitVec.toNat = nlanes P := by
  unfold Spec.bytesToLanes nlanes
  rw [List.map_map]
  refine List.map_congr_left fun i _ => ?_
  rw [Function.comp_apply, BitVec.toNat_ofNat]

theorem zipWith_zero (l : List Lane) : List.zipWith (· ^^^ ·) (List.replicate l.length 0#64) l = l := by
  induction l with
  | nil => rfl
  | cons x l ih => rw [List.length_cons, List.replicate_succ, List.zipWith_cons_cons, ih, BitVec.zero_xor]

/-- The state of the sponge after a message shorter than a block. -/
def nsponge (ds : Nat) (m : List Nat) : List Nat := nF (nlanes (m ++ Spec.pad ds 136 m.length))

theorem sponge_one (ds : Nat) (m : List Nat) (h : m.length < 136) : (Spec.absorbBlocks F1600 136 (m ++ Spec.pad ds 136 m.length)).map BitVec.toNat = nsponge ds m := by
  have hl : (m ++ Spec.pad ds 136 m.length).length = 136 := by
    unfold Spec.pad
    rw [Nat.mod_eq_of_lt h, List.length_append]
    dsimp only
    split
    · rw [List.length_singleton]; omega
    · rw [List.length_append, List.length_append, List.length_singleton, List.length_singleton, List.length_replicate]; omega
  unfold nsponge Spec.absorbBlocks
  generalize m ++ Spec.pad ds 136 m.length = P at hl
  rw [hl, show 136 / 136 = 1 from rfl, show List.range 1 = [0] from rfl, List.foldl_cons, List.foldl_nil, Nat.mul_zero, List.drop_zero, List.take_of_length_le (by omega)]
  have hb : (Spec.bytesToLanes P).length = 25 := by unfold Spec.bytesToLanes; rw [List.length_map, List.length_range]
  unfold Spec.inject
  have e := zipWith_zero (Spec.bytesToLanes P)
  rw [hb] at e
  rw [e, F1600_nat _ hb, nlanes_eq]

/-- The output bytes of the sponge for a message shorter than a block. -/
theorem spongeByte_one (ds : Nat) (m : List Nat) (h : m.length < 136) (k : Nat) :
    Spec.spongeByte Spec.F 136 ds m k = (nbytes ((k / 136).repeat nF (nsponge ds m))).getD (k % 136) 0 := by
  have e : Spec.spongeByte Spec.F 136 ds m k = Spec.spongeByte F1600 136 ds m k := by
    have := spongeOut_F F1600_spec F1600_length 136 ds m k 1
    unfold Spec.spongeOut at this
    simpa using this.symm
  rw [e]
  unfold Spec.spongeByte
  rw [nbytes_eq]
  have key : ∀ (n : Nat) (l : List Lane), l.length = 25 → (n.repeat F1600 l).length = 25 ∧ (n.repeat F1600 l).map BitVec.toNat = n.repeat nF (l.map BitVec.toNat) := by
    intro n
    induction n with
    | zero => exact fun l hl => ⟨hl, rfl⟩
    | succ n ih =>
      intro l hl
      obtain ⟨h1, h2⟩ := ih l hl
      exact ⟨F1600_length _ h1, by simp only [Nat.repeat]; rw [F1600_nat _ h1, h2]⟩
  rw [(key _ _ (absorbBlocks_length F1600_length _)).2, sponge_one ds m h]

/-- A little-endian word. -/
def w8 (a0 a1 a2 a3 a4 a5 a6 a7 : Nat) : Nat :=
  (a0 + a1 * 2 ^ 8 + a2 * 2 ^ 16 + a3 * 2 ^ 24 + a4 * 2 ^ 32 + a5 * 2 ^ 40 + a6 * 2 ^ 48 + a7 * 2 ^ 56) % 2 ^ 64

/-- Words from consecutive groups of eight bytes. -/
def chunk8 : List Nat → List Nat
  | a0 :: a1 :: a2 :: a3 :: a4 :: a5 :: a6 :: a7 :: t => w8 a0 a1 a2 a3 a4 a5 a6 a7 :: chunk8 t
  | _ => []

theorem chunk8_get (n : Nat) : ∀ (P : List Nat), P.length = 8 * n → (chunk8 P).length = n ∧
    ∀ i < n, (chunk8 P).getD i 0 = w8 (P.getD (8 * i + 0) 0) (P.getD (8 * i + 1) 0) (P.getD (8 * i + 2) 0) (P.getD (8 * i + 3) 0) (P.getD (8 * i + 4) 0) (P.getD (8 * i + 5) 0)
      (P.getD (8 * i + 6) 0) (P.getD (8 * i + 7) 0) := by
  induction n with
  | zero =>
    intro P h
    obtain rfl := List.eq_nil_of_length_eq_zero h
    exact ⟨rfl, fun i hi => absurd hi (by omega)⟩
  | succ n ih =>
    intro P h
    match P, h with
    | a0 :: a1 :: a2 :: a3 :: a4 :: a5 :: a6 :: a7 :: t, h =>
      simp only [List.length_cons] at h
      obtain ⟨h1, h2⟩ := ih t (by omega)
      refine ⟨by rw [chunk8, List.length_cons, h1], fun i hi => ?_⟩
      cases i with
      | zero => rw [chunk8, List.getD_cons_zero]; simp only [Nat.mul_zero, Nat.zero_add, List.getD_cons_zero, List.getD_cons_succ]
      | succ i =>
        rw [chunk8, List.getD_cons_succ, h2 i (by omega)]
        have e : ∀ k, (a0 :: a1 :: a2 :: a3 :: a4 :: a5 :: a6 :: a7 :: t).getD (8 * (i + 1) + k) 0 = t.getD (8 * i + k) 0 := by
          intro k
          rw [show 8 * (i + 1) + k = 8 * i + k + 1 + 1 + 1 + 1 + 1 + 1 + 1 + 1 by omega]
          simp only [List.getD_cons_succ]
        rw [e, e, e, e, e, e, e, e]
    | [], h => simp at h
    | [_], h => simp at h; omega
    | [_, _], h => simp at h; omega
    | [_, _, _], h => simp at h; omega
    | [_, _, _, _], h => simp at h; omega
    | [_, _, _, _, _], h => simp at h; omega
    | [_, _, _, _, _, _], h => simp at h; omega
    | [_, _, _, _, _, _, _], h => simp at h; omega

theorem nlanes_chunk (P : List Nat) (h : P.length = 136) : nlanes P = chunk8 P ++ List.replicate 8 0 := by
  obtain ⟨h1, h2⟩ := chunk8_get 17 P h
  unfold nlanes
  apply List.ext_getElem
  · rw [List.length_map, List.length_range, List.length_append, h1, List.length_replicate]
  · intro i i1 i2
    rw [List.length_map, List.length_range] at i1
    rw [List.getElem_map, List.getElem_range, fold8 fun k => P.getD (8 * i + k) 0]
    show w8 _ _ _ _ _ _ _ _ = _
    by_cases hi : i < 17
    · rw [← h2 i hi, List.getElem_append_left (by omega), List.getD_eq_getElem?_getD, List.getElem?_eq_getElem (by omega), Option.getD_some]
    · rw [List.getElem_append_right (by omega), List.getElem_replicate]
      have e : ∀ k, P.getD (8 * i + k) 0 = 0 := fun k => by rw [List.getD_eq_getElem?_getD, List.getElem?_eq_none (by omega)]; rfl
      rw [e, e, e, e, e, e, e, e]
      decide

end Verif.Keccak
