import Verif.CRef.KgPrimes
import Verif.CRef.KgSpec
import Verif.Falcon.Lemmas

/-! # C90: the final check of the NTRU equation -/

namespace Verif.CRef.Kg

open Verif.NTT Verif.Ring Verif.Falcon
open Verif.Packing (W getElem!_set)

variable {p p0i : ℕ}

/-- Integers as residues modulo `p`. -/
def zp (p : ℕ) (a : List ℤ) : List (ZMod p) := List.map (fun x : ℤ => ((x : ℤ) : ZMod p)) a

theorem ev_zp (r : ZMod p) (a : List ℤ) : ev r (zp p a) = ev r a := by
  unfold ev
  rw [show (zp p a).length = a.length by simp [zp]]
  apply Finset.sum_congr rfl
  intro i hi
  rw [Finset.mem_range] at hi
  rw [at'_lt _ _ (by simpa [zp] using hi), at'_lt _ _ hi]
  unfold zp
  rw [List.getElem_map]
  simp

theorem zp_val (M : Modulus p p0i) (a : List (ZMod p)) : NTT.toZ p (a.map fun x => x.val) = a := by
  have : Fact p.Prime := ⟨M.prime⟩
  unfold NTT.toZ
  rw [List.map_map]
  conv_rhs => rw [← List.map_id a]
  exact List.map_congr_left fun x _ => by simp

/-- Two lists with the same values at all points of the transform are equal. -/
theorem ev_inj (M : Modulus p p0i) {k : ℕ} {ps ps' : ℕ → ℕ} (L : Law p k ps ps') (a b : List (ZMod p)) (ha : a.length = 2 ^ k) (hb : b.length = 2 ^ k)
    (h : ∀ i < 2 ^ k, ev (node (fun j => (ps j : ZMod p)) (2 ^ k + i)) a = ev (node (fun j => (ps j : ZMod p)) (2 ^ k + i)) b) : a = b := by
  have hF : Fact p.Prime := ⟨M.prime⟩
  have h0 := p_pos M
  have hq := p_W M
  obtain ⟨A, hA⟩ : ∃ A : List ℕ, A = a.map fun x => x.val := ⟨_, rfl⟩
  obtain ⟨B, hB⟩ : ∃ B : List ℕ, B = b.map fun x => x.val := ⟨_, rfl⟩
  have tA : NTT.toZ p A = a := by rw [hA]; exact zp_val M a
  have tB : NTT.toZ p B = b := by rw [hB]; exact zp_val M b
  have lA : A.length = 2 ^ k := by rw [hA]; simpa using ha
  have lB : B.length = 2 ^ k := by rw [hB]; simpa using hb
  have cA : ∀ x < 2 ^ k, A[x]! < p := by
    intro x hx
    rw [hA, getElem!_pos _ x (by simpa [ha] using hx), List.getElem_map]
    exact ZMod.val_lt _
  obtain ⟨a1, a2, a3⟩ := nttFw_spec ps h0 hq k A lA
  obtain ⟨b1, b2, b3⟩ := nttFw_spec ps h0 hq k B lB
  have hc : ∀ x < 2 ^ k, (nttFw ps p (2 ^ k) A)[x]! ≤ p := by
    intro x hx
    rcases Nat.eq_zero_or_pos k with rfl | hk
    · have : nttFw ps p (2 ^ 0) A = A := rfl
      rw [this]; exact (cA x hx).le
    · exact (a2 hk x hx).le
  have e : ∀ x < 2 ^ k, res p (nttFw ps p (2 ^ k) A) x = res p (nttFw ps p (2 ^ k) B) x := by
    intro x hx
    rw [L.fw_eval h0 hq A lA x hx, L.fw_eval h0 hq B lB x hx, tA, tB]
    exact h x hx
  have h2 : ((2 : ℕ) : ZMod p) ≠ 0 := by
    intro h
    rw [ZMod.natCast_eq_zero_iff] at h
    have := Nat.le_of_dvd (by norm_num) h
    have := M.lo
    omega
  have hn : ((2 ^ k : ℕ) : ZMod p) * ((((2 ^ k : ℕ) : ZMod p)⁻¹).val : ℕ) = 1 := by
    rw [ZMod.natCast_zmod_val, mul_inv_cancel₀]
    rw [Nat.cast_pow]; exact pow_ne_zero _ h2
  have f1 := L.inv_fw h0 hq _ hn _ a1 hc (res p A) a3
  have f2 := L.inv_fw h0 hq _ hn _ a1 hc (res p B) (fun x hx => by rw [e x hx]; exact b3 x hx)
  rw [← tA, ← tB]
  apply List.ext_getElem (by rw [length_toZ, length_toZ, lA, lB])
  intro i hi hi'
  rw [length_toZ] at hi hi'
  have := f1 i (by omega)
  rw [f2 i (by omega)] at this
  rw [← at'_lt _ _ (by rw [length_toZ]; exact hi), ← at'_lt _ _ (by rw [length_toZ]; exact hi'), at'_toZ p A i hi, at'_toZ p B i hi', this]

/-! ## Bounds -/

theorem abs_negCoeff (n : ℕ) (a b : List ℤ) (A B : ℤ) (hA : 0 ≤ A) (hB : 0 ≤ B) (ha : ∀ i, |a.getD i 0| ≤ A) (hb : ∀ i, |b.getD i 0| ≤ B) (k : ℕ) (hk : k < n) :
    |negCoeff n a b k| ≤ n * (A * B) := by
  unfold negCoeff
  have hab : ∀ i j, |a.getD i 0 * b.getD j 0| ≤ A * B := by
    intro i j
    rw [abs_mul]; exact mul_le_mul (ha i) (hb j) (abs_nonneg _) hA
  refine le_trans (Finset.abs_sum_le_sum_abs _ _) ?_
  have : ∀ i ∈ Finset.range n, |∑ j ∈ Finset.range n, if i + j = k then a.getD i 0 * b.getD j 0 else if i + j = k + n then -(a.getD i 0 * b.getD j 0) else 0| ≤ A * B := by
    intro i hi
    rw [Finset.mem_range] at hi
    obtain ⟨j0, hj0, huniq⟩ : ∃ j0 < n, ∀ j < n, j ≠ j0 → i + j ≠ k ∧ i + j ≠ k + n := by
      by_cases h : i ≤ k
      · exact ⟨k - i, by omega, fun j hj hne => ⟨by omega, by omega⟩⟩
      · exact ⟨k + n - i, by omega, fun j hj hne => ⟨by omega, by omega⟩⟩
    rw [Finset.sum_eq_single_of_mem j0 (Finset.mem_range.2 hj0) (fun j hj hne => by
      obtain ⟨h1, h2⟩ := huniq j (Finset.mem_range.1 hj) hne
      rw [if_neg h1, if_neg h2])]
    split
    · exact hab i j0
    · split
      · rw [abs_neg]; exact hab i j0
      · rw [abs_zero]; positivity
  refine le_trans (Finset.sum_le_sum this) ?_
  rw [Finset.sum_const, Finset.card_range, nsmul_eq_mul]

theorem abs_getD (a : List ℤ) (B : ℤ) (hB : 0 ≤ B) (h : ∀ x ∈ a, -B ≤ x ∧ x ≤ B) (i : ℕ) : |a.getD i 0| ≤ B := by
  rw [List.getD_eq_getElem?_getD]
  cases e : a[i]? with
  | none => simpa using hB
  | some x => exact abs_le.2 (h x (List.mem_of_getElem? e))

/-! ## The check -/

/-- The transform of a small integer vector: values modulo `p`. -/
theorem conv_ok (M : Modulus p p0i) (k : ℕ) {gm : List ℕ} {ps' : ℕ → ℕ} (L : Law p k (psi p gm) ps') (hg : CanonP p gm) (a : List ℤ) (ha : a.length = 2 ^ k) (hb : ∀ x ∈ a, -128 ≤ x ∧ x ≤ 127)
    (i : ℕ) (hi : i < 2 ^ k) :
    Plain p (ntt2 ((List.range (2 ^ k)).map fun u => modpSet a[u]! p) gm k p p0i)[i]! (ev (node (fun j => (psi p gm j : ZMod p)) (2 ^ k + i)) a) := by
  have hlo := M.lo
  have hset : ∀ u < 2 ^ k, Plain p (modpSet a[u]! p) ((a[u]! : ℤ) : ZMod p) := by
    intro u hu
    have := hb a[u]! (by rw [getElem!_pos a u (by omega)]; exact List.getElem_mem _)
    exact modpSet_eq M _ (by omega) (by omega)
  obtain ⟨A, hA⟩ : ∃ A : List ℕ, A = (List.range (2 ^ k)).map fun u => modpSet a[u]! p := ⟨_, rfl⟩
  rw [← hA]
  have lA : A.length = 2 ^ k := by rw [hA]; simp
  have gA : ∀ u < 2 ^ k, A[u]! = modpSet a[u]! p := fun u hu => by rw [hA]; exact get_map _ _ u hu
  have cA : CanonP p A := canonP_of (2 ^ k) (p_pos M) A lA fun u hu => by rw [gA u hu]; exact (hset u hu).1
  obtain ⟨e1, e2⟩ := ntt2_eq M gm hg k A cA
  refine ⟨e2 i, ?_⟩
  have h := L.fw_eval (p_pos M) (p_W M) A lA i hi
  rw [← e1] at h
  unfold res at h
  rw [h, ← ev_zp]
  congr 1
  unfold NTT.toZ zp
  apply List.ext_getElem (by simp [lA, ha])
  intro j h1 h2
  rw [List.length_map] at h1
  rw [List.getElem_map, List.getElem_map, ← getElem!_pos A j h1, gA j (by omega), (hset j (by omega)).2, getElem!_pos a j (by omega)]

/-- The left side of the equation minus the right side. -/
def defect (n : ℕ) (f g F G : List ℤ) : List ℤ :=
  List.zipWith (· - ·) (List.zipWith (· - ·) (negMul n f G) (negMul n g F)) (12289 :: List.replicate (n - 1) 0)

theorem length_defect (n : ℕ) (hn : 0 < n) (f g F G : List ℤ) : (defect n f g F G).length = n := by
  unfold defect
  simp; omega

theorem get_const (n : ℕ) (i : ℕ) (hi : i < n) (h : i < (12289 :: List.replicate (n - 1) (0 : ℤ)).length) : (12289 :: List.replicate (n - 1) (0 : ℤ))[i] = if i = 0 then 12289 else 0 := by
  cases i with
  | zero => rfl
  | succ i => rw [List.getElem_cons_succ, List.getElem_replicate]; rfl

theorem defect_get (n : ℕ) (f g F G : List ℤ) (i : ℕ) (hi : i < n) (h : i < (defect n f g F G).length) :
    (defect n f g F G)[i] = (negMul n f G).getD i 0 - (negMul n g F).getD i 0 - if i = 0 then 12289 else 0 := by
  unfold defect at h ⊢
  rw [List.getElem_zipWith, List.getElem_zipWith, get_const n i hi, List.getD_eq_getElem?_getD, List.getD_eq_getElem?_getD, List.getElem?_eq_getElem (by simpa using hi),
    List.getElem?_eq_getElem (by simpa using hi)]
  rfl

theorem ntru_iff (n : ℕ) (hn : 0 < n) (f g F G : List ℤ) (hf : f.length = n) (hg : g.length = n) (hF : F.length = n) (hG : G.length = n) :
    IsNtru n f g F G ↔ ∀ x ∈ defect n f g F G, x = 0 := by
  have hl := length_defect n hn f g F G
  constructor
  · rintro ⟨_, _, _, _, h⟩ x hx
    obtain ⟨i, hi, rfl⟩ := List.getElem_of_mem hx
    rw [defect_get n f g F G i (by omega), h i (by omega), sub_self]
  · intro h
    refine ⟨hf, hg, hF, hG, fun i hi => ?_⟩
    have := h _ (List.getElem_mem (show i < (defect n f g F G).length by omega))
    rw [defect_get n f g F G i hi] at this
    linarith

theorem negMul_getD (n : ℕ) (a b : List ℤ) (i : ℕ) (hi : i < n) : (negMul n a b).getD i 0 = negCoeff n a b i := by
  unfold negMul
  rw [List.getD_eq_getElem?_getD, List.getElem?_map, List.getElem?_range hi]; rfl

/-- The coefficients are far below the prime. -/
theorem defect_bound (k : ℕ) (hk : k ≤ 10) (f g F G : List ℤ) (bf : ∀ x ∈ f, -128 ≤ x ∧ x ≤ 127) (bg : ∀ x ∈ g, -128 ≤ x ∧ x ≤ 127)
    (bF : ∀ x ∈ F, -128 ≤ x ∧ x ≤ 127) (bG : ∀ x ∈ G, -128 ≤ x ∧ x ≤ 127) : ∀ x ∈ defect (2 ^ k) f g F G, |x| ≤ 33566721 := by
  have w : ∀ {a : List ℤ}, (∀ x ∈ a, -128 ≤ x ∧ x ≤ 127) → ∀ i, |a.getD i 0| ≤ 128 := fun h i => abs_getD _ 128 (by norm_num) (fun x hx => by have := h x hx; omega) i
  have hn : ((2 ^ k : ℕ) : ℤ) ≤ 1024 := by exact_mod_cast le_trans (Nat.pow_le_pow_right (by norm_num) hk) (by norm_num)
  intro x hx
  obtain ⟨i, hi, rfl⟩ := List.getElem_of_mem hx
  rw [length_defect _ (by positivity)] at hi
  rw [defect_get _ f g F G i hi, negMul_getD _ _ _ _ hi, negMul_getD _ _ _ _ hi]
  have h1 := abs_negCoeff (2 ^ k) f G 128 128 (by norm_num) (by norm_num) (w bf) (w bG) i hi
  have h2 := abs_negCoeff (2 ^ k) g F 128 128 (by norm_num) (by norm_num) (w bg) (w bF) i hi
  rw [abs_le] at h1 h2 ⊢
  split <;> constructor <;> linarith [h1.1, h1.2, h2.1, h2.2]

/-- **C90** (the check): for `int8_t` polynomials of any degree `2^k ≤ 1024`, and whatever the buffer of the tables contains, the check at the end of `solve_NTRU` succeeds exactly when
`f*G - g*F = q` holds over the integers. -/
theorem C90_check (k : ℕ) (hk : k ≤ 10) (mem : List ℕ) (hm : mem.length = 2 ^ k) (f g F G : List ℤ) (hf : f.length = 2 ^ k) (hg : g.length = 2 ^ k) (hF : F.length = 2 ^ k) (hG : G.length = 2 ^ k)
    (bf : ∀ x ∈ f, -128 ≤ x ∧ x ≤ 127) (bg : ∀ x ∈ g, -128 ≤ x ∧ x ≤ 127) (bF : ∀ x ∈ F, -128 ≤ x ∧ x ≤ 127) (bG : ∀ x ∈ G, -128 ≤ x ∧ x ≤ 127) :
    checkNTRU k mem f g F G = true ↔ IsNtru (2 ^ k) f g F G := by
  have M := modulus_p0
  obtain ⟨L, c1, _⟩ := law_mkgm2 M k hk mem mem hm hm g0 root_p0
  have hpr : Fact (p0.Prime) := ⟨M.prime⟩
  have hlo := M.lo
  have hR := Rf_ne M
  obtain ⟨D, hD⟩ : ∃ D, D = defect (2 ^ k) f g F G := ⟨_, rfl⟩
  have lD : D.length = 2 ^ k := by rw [hD]; exact length_defect _ (by positivity) f g F G
  rw [ntru_iff (2 ^ k) (by positivity) f g F G hf hg hF hG, ← hD]
  have hb := defect_bound k hk f g F G bf bg bF bG
  rw [← hD] at hb
  unfold checkNTRU
  dsimp only
  have cf := conv_ok M k L c1 f hf bf
  have cg := conv_ok M k L c1 g hg bg
  have cF := conv_ok M k L c1 F hF bF
  have cG := conv_ok M k L c1 G hG bG
  generalize ntt2 ((List.range (2 ^ k)).map fun u => modpSet f[u]! p0) (mkgm2 mem mem k g0 p0 (modpNinv31 p0)).1 k p0 (modpNinv31 p0) = ft at cf ⊢
  generalize ntt2 ((List.range (2 ^ k)).map fun u => modpSet g[u]! p0) (mkgm2 mem mem k g0 p0 (modpNinv31 p0)).1 k p0 (modpNinv31 p0) = gt at cg ⊢
  generalize ntt2 ((List.range (2 ^ k)).map fun u => modpSet F[u]! p0) (mkgm2 mem mem k g0 p0 (modpNinv31 p0)).1 k p0 (modpNinv31 p0) = Ft at cF ⊢
  generalize ntt2 ((List.range (2 ^ k)).map fun u => modpSet G[u]! p0) (mkgm2 mem mem k g0 p0 (modpNinv31 p0)).1 k p0 (modpNinv31 p0) = Gt at cG ⊢
  generalize (mkgm2 mem mem k g0 p0 (modpNinv31 p0)).1 = gm at *
  generalize psi p0 (mkgm2 mem mem k g0 p0 (modpNinv31 p0)).2 = ps' at *
  obtain ⟨r, hr⟩ : ∃ r : ℕ → ZMod p0, r = fun i => node (fun j => (psi p0 gm j : ZMod p0)) (2 ^ k + i) := ⟨_, rfl⟩
  have hri : ∀ i, node (fun j => (psi p0 gm j : ZMod p0)) (2 ^ k + i) = r i := fun i => by rw [hr]
  have hev : ∀ i < 2 ^ k, ev (r i) D = ev (r i) f * ev (r i) G - ev (r i) g * ev (r i) F - 12289 := by
    intro i hi
    have hp : r i ^ 2 ^ k = -1 := by rw [hr]; exact L.node_pow i hi
    have l1 : (List.zipWith (· - ·) (negMul (2 ^ k) f G) (negMul (2 ^ k) g F)).length = 2 ^ k := by simp
    have l2 : (12289 :: List.replicate (2 ^ k - 1) (0 : ℤ)).length = 2 ^ k := by
      have : 0 < 2 ^ k := by positivity
      simp; omega
    rw [hD]; unfold defect
    rw [ev_zipWith_sub _ _ _ _ l1 l2, ev_zipWith_sub _ (2 ^ k) _ _ (by simp) (by simp), ev_negMul _ _ hp f G hf hG, ev_negMul _ _ hp g F hg hF, ev_const]
    simp
  -- one position
  have key : ∀ i < 2 ^ k, (modpSub (modpMontymul ft[i]! Gt[i]! p0 (modpNinv31 p0)) (modpMontymul gt[i]! Ft[i]! p0 (modpNinv31 p0)) p0 = modpMontymul 12289 1 p0 (modpNinv31 p0) ↔ ev (r i) D = 0) := by
    intro i hi
    have a1 := cf i hi
    have a2 := cg i hi
    have a3 := cF i hi
    have a4 := cG i hi
    rw [hri i] at a1 a2 a3 a4
    have m1 := cast_mm M _ _ a1.1 a4.1
    have m2 := cast_mm M _ _ a2.1 a3.1
    have m3 := cast_mm M 12289 1 (by omega) (by omega)
    have q1 := montymul_lt M _ _ a1.1 a4.1
    have q2 := montymul_lt M _ _ a2.1 a3.1
    have q3 := montymul_lt M 12289 1 (by omega) (by omega)
    rw [a1.2, a4.2] at m1
    rw [a2.2, a3.2] at m2
    generalize modpMontymul ft[i]! Gt[i]! p0 (modpNinv31 p0) = u at *
    generalize modpMontymul gt[i]! Ft[i]! p0 (modpNinv31 p0) = v at *
    generalize modpMontymul 12289 1 p0 (modpNinv31 p0) = w at *
    obtain ⟨s1, s2⟩ := Plain.sub M (a := u) (b := v) ⟨q1, rfl⟩ ⟨q2, rfl⟩
    rw [hev i hi]
    constructor
    · intro h
      rw [h] at s2
      push_cast at m3
      linear_combination m1.symm + -m2.symm - m3.symm - Rf p0 * s2
    · intro h
      have e : ((modpSub u v p0 : ℕ) : ZMod p0) = (w : ZMod p0) := by
        rw [s2]
        apply mul_right_cancel₀ hR
        push_cast at m3
        linear_combination m1 - m2 - m3 + h
      rw [ZMod.natCast_eq_natCast_iff', Nat.mod_eq_of_lt s1, Nat.mod_eq_of_lt q3] at e
      exact e
  rw [List.all_eq_true]
  constructor
  · intro h x hx
    have hz : ∀ i < 2 ^ k, ev (r i) (zp p0 D) = ev (r i) (zp p0 (List.replicate (2 ^ k) 0)) := by
      intro i hi
      have h1 := h i (List.mem_range.2 hi)
      rw [beq_iff_eq] at h1
      rw [ev_zp, ev_zp, (key i hi).1 h1, ev_replicate_zero]
    rw [hr] at hz
    have he := ev_inj M L _ _ (by simp [zp, lD]) (by simp [zp]) hz
    obtain ⟨i, hi, rfl⟩ := List.getElem_of_mem hx
    have h2 := congrArg (fun l => l[i]?) he
    unfold zp at h2
    rw [List.getElem?_map, List.getElem?_map, List.getElem?_eq_getElem hi, List.getElem?_eq_getElem (by simp; omega), List.getElem_replicate] at h2
    have h3 : ((D[i] : ℤ) : ZMod p0) = ((0 : ℤ) : ZMod p0) := Option.some.inj h2
    rw [Int.cast_zero, ZMod.intCast_zmod_eq_zero_iff_dvd] at h3
    have h4 := hb _ hx
    exact Int.eq_zero_of_abs_lt_dvd h3 (by omega)
  · intro h i hi
    rw [beq_iff_eq]
    have hi := List.mem_range.1 hi
    rw [key i hi]
    have : D = List.replicate (2 ^ k) 0 := List.eq_replicate_iff.2 ⟨lD, h⟩
    rw [this, ev_replicate_zero]

end Verif.CRef.Kg
