import Verif.FFT.Norm

/-! The coefficient versions `ffldl`, `ffnp` and the FFT versions `ffldl_fft`, `ffnp_fft` compute the same thing. -/

namespace Verif.FFT

open Finset

set_option linter.unusedSectionVars false

variable {K : Type} [Field K] [StarRing K] [DecidableEq K]

/-- The tree whose nodes are the transforms of the nodes of a coefficient tree (leaves are polynomials of length 2). -/
def fftTree (R : Nat → Nat → K) : Nat → Tree K → Tree K
  | k + 1, .node l T0 T1 => .node (tr R (k + 1) l) (fftTree R k T0) (fftTree R k T1)
  | _, .leaf l => .leaf (tr R 1 l)
  | 0, T => T

/-- Shape of a coefficient tree with real entries. -/
def RealShaped : Nat → Tree K → Prop
  | 0, .leaf l => l ≠ []
  | k + 1, .node l10 T0 T1 => l10.length = 2 ^ (k + 1) ∧ Real' l10 ∧ RealShaped k T0 ∧ RealShaped k T1
  | _, _ => False

/-- Self-adjoint matrices of real polynomials of length `2^k`. -/
structure SelfAdj (k : Nat) (G : Mat K) : Prop where
  len : G.Len (2 ^ k)
  real : G.Real
  a : adjSpec G.a = G.a
  b : G.b = adjSpec G.c
  d : adjSpec G.d = G.d

/-- The matrix of transforms. -/
def trMat (R : Nat → Nat → K) (k : Nat) (G : Mat K) : Mat K := ⟨tr R k G.a, tr R k G.b, tr R k G.c, tr R k G.d⟩

variable {R : Nat → Nat → K} {I : K} (hR : RootLaw R I)
include hR

theorem getD_tr {k i : Nat} (hi : i < 2 ^ k) (f : List K) : (tr R k f).getD i 0 = evalAt (R (2 ^ k) i) f := getD_vec_lt hi

theorem adjFft_tr {k : Nat} (h1 : 1 ≤ k) (h2 : k ≤ 10) {f : List K} (hf : f.length = 2 ^ k) (rf : Real' f) : adjFft (tr R k f) = tr R k (adjSpec f) := by
  unfold tr
  rw [adjFft_vec]
  apply vec_congr; intro i hi
  rw [evalAt_adjSpec (hR.pow h1 h2 i hi) (hR.unit k i h1 h2 hi) hf rf]

theorem adjSpec_involutive {k : Nat} (h1 : 1 ≤ k) (h2 : k ≤ 10) {f : List K} (hf : f.length = 2 ^ k) (rf : Real' f) : adjSpec (adjSpec f) = f := by
  apply fft_inj hR h1 h2 (by rw [length_adjSpec, length_adjSpec, hf]) hf (real_adjSpec (real_adjSpec rf)) rf
  intro i hi
  have hr := hR.pow h1 h2 i hi
  have hu := hR.unit k i h1 h2 hi
  rw [evalAt_adjSpec hr hu (by rw [length_adjSpec, hf]) (real_adjSpec rf), evalAt_adjSpec hr hu hf rf, star_star]

/-- `ldl_fft` of the transforms is the transform of `ldl`. -/
theorem ldl_agree {k : Nat} (h1 : 1 ≤ k) (h2 : k ≤ 10) {G : Mat K} (hG : SelfAdj k G) :
    (ldl R I G = .error .runtimeError ∧ ldlFft (trMat R k G) = .error .runtimeError) ∨
    ∃ l10 d11, ldl R I G = .ok ⟨⟨poly1 (2 ^ k), poly0 (2 ^ k), l10, poly1 (2 ^ k)⟩, ⟨G.a, poly0 (2 ^ k), poly0 (2 ^ k), d11⟩⟩ ∧
      l10.length = 2 ^ k ∧ d11.length = 2 ^ k ∧ Real' l10 ∧ Real' d11 ∧ adjSpec d11 = d11 ∧
      ldlFft (trMat R k G) = .ok ⟨⟨vec (2 ^ k) fun _ => 1, vec (2 ^ k) fun _ => 0, tr R k l10, vec (2 ^ k) fun _ => 1⟩, ⟨tr R k G.a, vec (2 ^ k) fun _ => 0, vec (2 ^ k) fun _ => 0, tr R k d11⟩⟩ := by
  have tl : (trMat R k G).Len (2 ^ k) := ⟨length_tr _ _ _, length_tr _ _ _, length_tr _ _ _, length_tr _ _ _⟩
  by_cases h0 : ∀ i < 2 ^ k, evalAt (R (2 ^ k) i) G.a ≠ 0
  · right
    obtain ⟨l, d, e, hl, hd, rl, rd, el, ed⟩ := ldl_eq hR h1 h2 hG.len hG.real h0
    refine ⟨l, d, e, hl, hd, rl, rd, ?_, ?_⟩
    · apply fft_inj hR h1 h2 (by rw [length_adjSpec, hd]) hd (real_adjSpec rd) rd
      intro i hi
      have hr := hR.pow h1 h2 i hi
      have hu := hR.unit k i h1 h2 hi
      have sa : star (evalAt (R (2 ^ k) i) G.a) = evalAt (R (2 ^ k) i) G.a := by rw [← evalAt_adjSpec hr hu hG.len.1 hG.real.1, hG.a]
      have sd : star (evalAt (R (2 ^ k) i) G.d) = evalAt (R (2 ^ k) i) G.d := by rw [← evalAt_adjSpec hr hu hG.len.2.2.2 hG.real.2.2.2, hG.d]
      rw [evalAt_adjSpec hr hu hd rd, ed i hi]
      simp only [star_sub, star_mul', star_star, sa, sd]
      ring
    · rw [ldlFft_eq tl (by intro i hi; rw [show (trMat R k G).a = tr R k G.a from rfl, getD_tr hR hi]; exact h0 i hi)]
      congr 3
      · apply vec_congr; intro i hi
        rw [show (trMat R k G).a = tr R k G.a from rfl, show (trMat R k G).c = tr R k G.c from rfl, getD_tr hR hi, getD_tr hR hi, el i hi]
      · apply vec_congr; intro i hi
        rw [show (trMat R k G).a = tr R k G.a from rfl, show (trMat R k G).c = tr R k G.c from rfl, show (trMat R k G).d = tr R k G.d from rfl, getD_tr hR hi, getD_tr hR hi, getD_tr hR hi, ed i hi, el i hi]
  · left
    push Not at h0
    obtain ⟨i, hi, h0⟩ := h0
    refine ⟨ldl_zero hR h1 h2 hG.len hi h0, ldlFft_zero tl hi ?_⟩
    rw [show (trMat R k G).a = tr R k G.a from rfl, getD_tr hR hi, h0]

/-- The even half of a self-adjoint polynomial is self-adjoint. -/
theorem selfAdj_split {k : Nat} (h1 : 1 ≤ k) (h2 : k < 10) {D : List K} (hl : D.length = 2 ^ (k + 1)) (rD : Real' D) (hD : adjSpec D = D) :
    SelfAdj k ⟨(split D).1, (split D).2, adjSpec (split D).2, (split D).1⟩ := by
  have e := pow_succ 2 k
  have ls := length_split D
  have rs := real_split rD
  have l1 : (split D).1.length = 2 ^ k := by omega
  have l2 : (split D).2.length = 2 ^ k := by omega
  have sa : adjSpec (split D).1 = (split D).1 := by
    rw [split_eq (m := 2 ^ k) (by omega)]
    unfold adjSpec
    rw [length_vec]
    apply vec_congr
    intro i hi
    have hadj : ∀ j, j < 2 ^ (k + 1) → j ≠ 0 → -D.getD (2 ^ (k + 1) - j) 0 = D.getD j 0 := by
      intro j hj h0
      conv_rhs => rw [← hD]
      unfold adjSpec
      rw [hl, getD_vec_lt hj, if_neg h0]
    split
    · rename_i h; subst h; rw [getD_vec_lt (by omega)]
    · rw [getD_vec_lt (by omega), ← hadj (2 * i) (by omega) (by omega)]
      congr 2; omega
  exact ⟨⟨l1, l2, by rw [length_adjSpec, l2], l1⟩, ⟨rs.1, rs.2, real_adjSpec rs.2, rs.1⟩, sa, (adjSpec_involutive hR h1 (by omega) l2 rs.2).symm, sa⟩

/-- `ffldl_fft` of the transforms is the transform, node by node, of `ffldl`. -/
theorem ffldl_agree : ∀ (k : Nat), k + 1 ≤ 10 → ∀ (fuel : Nat) (G : Mat K), SelfAdj (k + 1) G → k < fuel →
    (∃ e, ffldlLoop R I fuel G = .error e ∧ ffldlFftLoop R fuel (trMat R (k + 1) G) = .error e) ∨
    ∃ T, ffldlLoop R I fuel G = .ok T ∧ ffldlFftLoop R fuel (trMat R (k + 1) G) = .ok (fftTree R (k + 1) T) ∧ RealShaped (k + 1) T := by
  intro k
  induction k with
  | zero =>
    intro hk fuel G hG hf
    obtain ⟨fuel, rfl⟩ : ∃ j, fuel = j + 1 := ⟨fuel - 1, by omega⟩
    have la : (trMat R (0 + 1) G).a.length = 2 := length_tr _ _ _
    have lG : G.a.length = 2 := hG.len.1
    unfold ffldlLoop ffldlFftLoop
    rcases ldl_agree hR (by omega) hk hG with ⟨e1, e2⟩ | ⟨l, d, e1, hl, hd, rl, rd, sd, e2⟩
    · left; rw [e1, e2]; exact ⟨_, rfl, rfl⟩
    · right
      rw [e1, e2]
      dsimp only
      rw [lG, la, if_neg (by omega), if_pos rfl]
      have low : ∀ x : List K, x.length = 2 ^ (0 + 1) → adjSpec x = x → x.set 1 0 = x := by
        intro x hx h
        have hx : x.length = 2 := hx
        have h1 : -x.getD 1 0 = x.getD 1 0 := by
          conv_rhs => rw [← h]
          unfold adjSpec
          rw [hx, getD_vec_lt (by omega), if_neg (by omega)]
        have h0 : x.getD 1 0 = 0 := by
          have : 2 * x.getD 1 0 = 0 := by linear_combination -h1
          exact (mul_eq_zero.1 this).resolve_left hR.two
        obtain ⟨a, b, rfl⟩ : ∃ a b, x = [a, b] := ⟨_, _, eq_vec' hx⟩
        simp at h0
        simp [h0]
      rw [low _ hG.len.1 hG.a, low _ hd sd]
      have ne : ∀ x : List K, x.length = 2 ^ (0 + 1) → x ≠ [] := by
        rintro x hx rfl; simp at hx
      exact ⟨_, rfl, rfl, hl, rl, ne _ hG.len.1, ne _ hd⟩
  | succ k ih =>
    intro hk fuel G hG hf
    obtain ⟨fuel, rfl⟩ : ∃ j, fuel = j + 1 := ⟨fuel - 1, by omega⟩
    have e := pow_succ 2 (k + 1)
    have hp : 2 ≤ 2 ^ (k + 1) := by
      calc 2 = 2 ^ 1 := rfl
        _ ≤ 2 ^ (k + 1) := Nat.pow_le_pow_right (by omega) (by omega)
    have la : (trMat R (k + 1 + 1) G).a.length = 2 ^ (k + 1 + 1) := length_tr _ _ _
    unfold ffldlLoop ffldlFftLoop
    rcases ldl_agree hR (by omega) hk hG with ⟨e1, e2⟩ | ⟨l, d, e1, hl, hd, rl, rd, sd, e2⟩
    · left; rw [e1, e2]; exact ⟨_, rfl, rfl⟩
    · rw [e1, e2]
      dsimp only
      rw [hG.len.1, la, if_pos (by omega), if_pos (by omega)]
      have g0 := selfAdj_split hR (by omega) (by omega) hG.len.1 hG.real.1 hG.a
      have g1 := selfAdj_split hR (by omega) (by omega) hd rd sd
      rw [adj_eq hR (by omega) (by omega) g0.len.2.1 g0.real.2.1]
      dsimp only
      rw [adj_eq hR (by omega) (by omega) g1.len.2.1 g1.real.2.1]
      dsimp only
      rw [split_tr hR (by omega) hG.len.1]
      dsimp only
      rw [split_tr hR (by omega) hd]
      dsimp only
      rw [adjFft_tr hR (by omega) (by omega) g0.len.2.1 g0.real.2.1, adjFft_tr hR (by omega) (by omega) g1.len.2.1 g1.real.2.1]
      have m0 := ih (by omega) fuel _ g0 (by omega)
      have m1 := ih (by omega) fuel _ g1 (by omega)
      simp only [trMat] at m0 m1
      rcases m0 with ⟨e, a1, a2⟩ | ⟨T0, a1, a2, a3⟩
      · left; rw [a1, a2]; exact ⟨_, rfl, rfl⟩
      · rcases m1 with ⟨e, b1, b2⟩ | ⟨T1, b1, b2, b3⟩
        · left; rw [a1, a2]; dsimp only; rw [b1, b2]; exact ⟨_, rfl, rfl⟩
        · right; rw [a1, a2]; dsimp only; rw [b1, b2]
          exact ⟨_, rfl, rfl, hl, rl, a3, b3⟩

/-- `ffnp_fft` on the transforms returns the transforms of what `ffnp` returns, and these are integers. -/
theorem ffnp_agree (rnd : K → Int) : ∀ (k : Nat), k ≤ 10 → ∀ (fuel : Nat) (x0 x1 : List K) (T : Tree K), x0.length = 2 ^ k → x1.length = 2 ^ k → Real' x0 → Real' x1 → RealShaped k T → k < fuel →
    ∃ z0 z1 : List Int, z0.length = 2 ^ k ∧ z1.length = 2 ^ k ∧ ffnpLoop R I rnd fuel x0 x1 T = .ok (toK z0, toK z1) ∧
      ffSamplingLoop (St := Unit) R (fun st c _ => (rnd c, st)) false fuel (tr R k x0) (tr R k x1) (fftTree R k T) () = .ok ((tr R k (toK z0), tr R k (toK z1)), ()) := by
  intro k
  induction k with
  | zero =>
    intro _ fuel x0 x1 T h0 h1 r0 r1 hT hf
    obtain ⟨fuel, rfl⟩ : ∃ j, fuel = j + 1 := ⟨fuel - 1, by omega⟩
    have c0 := r0.getD 0
    have c1 := r1.getD 0
    rw [eq_singleton h0, eq_singleton h1]
    generalize x0.getD 0 0 = a at *
    generalize x1.getD 0 0 = b at *
    refine ⟨[rnd a], [rnd b], rfl, rfl, ?_, ?_⟩
    · simp [ffnpLoop, toK]
    · unfold ffSamplingLoop
      rw [if_neg (by rw [length_tr]; norm_num), if_pos (by rw [length_tr]; norm_num), if_neg (by simp)]
      simp only [tr_zero, toK, List.map_cons, List.map_nil, List.getD_cons_zero, re_of_real hR c0, re_of_real hR c1]
  | succ k ih =>
    intro hk fuel x0 x1 T h0 h1 r0 r1 hT hf
    obtain ⟨fuel, rfl⟩ : ∃ j, fuel = j + 1 := ⟨fuel - 1, by omega⟩
    rcases T with _ | ⟨l, T0, T1⟩
    · exact absurd hT (by simp [RealShaped])
    obtain ⟨hl, rl, hT0, hT1⟩ := hT
    have e := pow_succ 2 k
    have hp : 0 < 2 ^ k := by positivity
    have ls1 := length_split x1
    obtain ⟨a1, b1, la1, lb1, p1, q1⟩ := ih (by omega) fuel (split x1).1 (split x1).2 T1 (by omega) (by omega) (real_split r1).1 (real_split r1).2 hT1 (by omega)
    have lz1 : (toK (interleaveZ a1 b1) : List K).length = 2 ^ (k + 1) := by rw [length_toK, length_interleaveZ, la1]; omega
    obtain ⟨d, hd⟩ : ∃ d : List K, d = vec (2 ^ (k + 1)) fun i => x1.getD i 0 - (toK (interleaveZ a1 b1)).getD i 0 := ⟨_, rfl⟩
    have ld : d.length = 2 ^ (k + 1) := by rw [hd]; simp
    have rd : Real' d := by rw [hd]; apply real_vec; intro i _; rw [star_sub, r1.getD, (real_toK _).getD]
    obtain ⟨w, hw⟩ : ∃ w : List K, w = polyAdd (2 ^ (k + 1)) x0 (Ring.negMul (2 ^ (k + 1)) d l) := ⟨_, rfl⟩
    have lw : w.length = 2 ^ (k + 1) := by rw [hw, length_polyAdd hR]
    have rw' : Real' w := by rw [hw]; exact real_polyAdd hR r0 (real_negMul rd rl)
    have lsw := length_split w
    obtain ⟨a0, b0, la0, lb0, p0, q0⟩ := ih (by omega) fuel (split w).1 (split w).2 T0 (by omega) (by omega) (real_split rw').1 (real_split rw').2 hT0 (by omega)
    refine ⟨interleaveZ a0 b0, interleaveZ a1 b1, by rw [length_interleaveZ, la0, e, mul_comm], by rw [length_interleaveZ, la1, e, mul_comm], ?_, ?_⟩
    · unfold ffnpLoop
      rw [if_pos (by omega)]
      dsimp only
      rw [p1]
      dsimp only
      rw [merge_eq (by rw [length_toK, length_toK, la1, lb1]), interleave_toK]
      dsimp only
      rw [sub_eq hR h1 lz1, ← hd]
      dsimp only
      rw [mul_eq hR (by omega) hk ld hl rd rl]
      dsimp only
      rw [add_eq hR h0 (by simp), ← hw]
      dsimp only
      rw [p0]
      dsimp only
      rw [merge_eq (by rw [length_toK, length_toK, la0, lb0]), interleave_toK]
    · simp only [fftTree]
      unfold ffSamplingLoop
      rw [if_pos (by rw [length_tr]; omega)]
      dsimp only
      rw [split_tr hR (by omega) h1]
      dsimp only
      rw [q1]
      dsimp only
      rw [merge_tr hR (by omega) (by rw [length_toK, la1]) (by rw [length_toK, lb1]), interleave_toK]
      dsimp only
      have s1 : sub (tr R (k + 1) x1) (tr R (k + 1) (toK (interleaveZ a1 b1))) = .ok (tr R (k + 1) d) := by
        unfold tr
        rw [sub_vec]
        congr 1
        apply vec_congr; intro i hi
        rw [hd, evalAt_sub, ← eq_vec' h1, ← eq_vec' lz1]
      rw [s1]
      dsimp only
      have s2 : mulFft (tr R (k + 1) d) (tr R (k + 1) l) = .ok (tr R (k + 1) (Ring.negMul (2 ^ (k + 1)) d l)) := by
        unfold tr
        rw [mulFft_vec]
        congr 1
        apply vec_congr; intro i hi
        rw [evalAt_negMul (hR.pow (by omega) hk i hi) ld hl]
      rw [s2]
      dsimp only
      have s3 : add (tr R (k + 1) x0) (tr R (k + 1) (Ring.negMul (2 ^ (k + 1)) d l)) = .ok (tr R (k + 1) w) := by
        unfold tr
        rw [add_vec]
        congr 1
        apply vec_congr; intro i hi
        rw [hw, evalAt_polyAdd hR h0 (by simp)]
      rw [s3]
      dsimp only
      rw [split_tr hR (by omega) lw]
      dsimp only
      rw [q0]
      dsimp only
      rw [merge_tr hR (by omega) (by rw [length_toK, la0]) (by rw [length_toK, lb0]), interleave_toK]

end Verif.FFT
