import Verif.CRef.Reduce
import Verif.CRef.DeepestStep
import Verif.CRef.ZintScaled
import Verif.CRef.ZintProps

/-! # `poly_sub_scaled_ntt` computes what `poly_sub_scaled` computes -/

namespace Verif.CRef.Kg

open Verif.NTT Verif.Ring Verif.Falcon
open Verif.Packing (W getElem!_set)

variable {p p0i : ℕ}

theorem prodGet (M : Modulus p p0i) (s t : List ℕ) (cs : CanonP p s) (ct : CanonP p t) (v : ℕ) :
    modpMontymul (modpMontymul s[v]! t[v]! p p0i) (modpR2 p p0i) p p0i < p ∧ ((modpMontymul (modpMontymul s[v]! t[v]! p p0i) (modpR2 p p0i) p p0i : ℕ) : ZMod p) = (s[v]! : ZMod p) * t[v]! := by
  have h1 := montymul_lt M _ _ (cs v) (ct v)
  have h2 := cast_mm M _ _ (cs v) (ct v)
  have h3 := modpR2_eq M
  have h4 := montymul_lt M _ _ h1 h3.1
  have h5 := cast_mm M _ _ h1 h3.1
  have hF : Fact p.Prime := ⟨M.prime⟩
  rw [h3.2, ← mul_assoc, h2] at h5
  exact ⟨h4, mul_right_cancel₀ (Rf_ne M) h5⟩

/-- The products of two transforms are the transform of the product in `Z[x]/(x^n+1)`. -/
theorem prod_ntt (M : Modulus p p0i) {k : ℕ} {G : List ℕ} {ps' : ℕ → ℕ} (L : Law p k (psi p G) ps') (hg : CanonP p G) (a b : List ℤ) (la : a.length = 2 ^ k) (lb : b.length = 2 ^ k) :
    ((List.range (2 ^ k)).map fun v => modpMontymul (modpMontymul (ntt2 (residues p a) G k p p0i)[v]! (ntt2 (residues p b) G k p p0i)[v]! p p0i) (modpR2 p p0i) p p0i) =
      ntt2 (residues p (negMul (2 ^ k) a b)) G k p p0i := by
  obtain ⟨l1, c1, e1⟩ := ntt_eval M L hg a la
  obtain ⟨l2, c2, e2⟩ := ntt_eval M L hg b lb
  obtain ⟨l3, c3, e3⟩ := ntt_eval M L hg (negMul (2 ^ k) a b) (length_negMul _ _ _)
  have get : ∀ v < 2 ^ k, ((List.range (2 ^ k)).map fun v => modpMontymul (modpMontymul (ntt2 (residues p a) G k p p0i)[v]! (ntt2 (residues p b) G k p p0i)[v]! p p0i) (modpR2 p p0i) p p0i)[v]! =
      modpMontymul (modpMontymul (ntt2 (residues p a) G k p p0i)[v]! (ntt2 (residues p b) G k p p0i)[v]! p p0i) (modpR2 p p0i) p p0i := by
    intro v hv
    rw [getElem!_pos _ v (by simpa using hv)]; simp
  apply list_eq_of_res (q := p) _ _ (by rw [l3]; simp)
  · intro v hv
    have hv : v < 2 ^ k := by simpa using hv
    rw [get v hv]; exact (prodGet M _ _ c1 c2 v).1
  · exact fun v _ => c3 v
  · intro v hv
    have hv : v < 2 ^ k := by simpa using hv
    unfold res
    rw [get v hv, (prodGet M _ _ c1 c2 v).2, e1 v hv, e2 v hv, e3 v hv, ev_negMul _ _ (L.node_pow v hv) a b la lb]

theorem rows_map (n flen : ℕ) (f : List (List ℕ)) (hf : Rows n flen f) : ∀ y ∈ f, y.length = flen ∧ Words y := by
  intro y hy
  obtain ⟨i, hi, rfl⟩ := List.mem_iff_getElem.1 hy
  have := hf.2 i (by rw [← hf.1]; exact hi)
  rwa [getElem!_pos f i hi] at this

theorem kfColumn_eq (logn : ℕ) (hl : logn ≤ 10) (flen : ℕ) (h5 : flen + 1 ≤ 521) (f : List (List ℕ)) (hf : Rows (2 ^ logn) flen f) (k : List ℤ) (hkl : k.length = 2 ^ logn)
    (hk : ∀ x ∈ k, ∀ u ≤ flen, |x| < ((primeList[u]! : ℕ) : ℤ)) (u : ℕ) (hu : u < flen + 1) : kfColumn f k flen logn u = residues primeList[u]! (negMul (2 ^ logn) k (f.map sbig)) := by
  have M := modulus_table u (by omega)
  obtain ⟨L, c1, c2⟩ := tabs_law logn hl u (by omega)
  unfold kfColumn
  dsimp only
  rw [primes_fst u (by omega)]
  have e1 : (k.map fun x => modpSet x primeList[u]!) = residues primeList[u]! k := by
    unfold residues
    apply List.map_congr_left
    intro z hz
    have lo := M.lo
    have b := abs_lt.1 (hk z hz u (by omega))
    have e := (C91_arith u (by omega) 0 0 (by omega) (by omega)).2.2.2.2.2.2 z b.1 b.2
    rw [← e]; simp
  have e2 : (f.map fun y => zintModSmallSigned y primeList[u]! (modpNinv31 primeList[u]!) (modpR2 primeList[u]! (modpNinv31 primeList[u]!))
      (modpRx flen primeList[u]! (modpNinv31 primeList[u]!) (modpR2 primeList[u]! (modpNinv31 primeList[u]!)))) = residues primeList[u]! (f.map sbig) := by
    unfold residues
    rw [List.map_map]
    apply List.map_congr_left
    intro y hy
    obtain ⟨ly, wy⟩ := rows_map _ _ f hf y hy
    have m := (C101_mod_small u (by omega) y wy (by omega)).2
    rw [ly] at m
    show _ = (sbig y % _).toNat
    omega
  rw [e1, e2, prod_ntt M L c1 k (f.map sbig) hkl (by rw [List.length_map, hf.1]), ntt_back M hl L c1 c2 _ (length_negMul _ _ _)]

theorem forall2_get {α β : Type} [Inhabited α] [Inhabited β] {R : α → β → Prop} : ∀ (a : List α) (l : List β), List.Forall₂ R a l → a.length = l.length ∧ ∀ i < a.length, R a[i]! l[i]!
  | [], [], _ => ⟨rfl, fun i hi => by simp at hi⟩
  | x :: a, y :: l, H => by
    rw [List.forall₂_cons] at H
    obtain ⟨h1, h2⟩ := forall2_get a l H.2
    refine ⟨by simp [h1], fun i hi => ?_⟩
    cases i with
    | zero => exact H.1
    | succ i =>
      have := h2 i (by simpa using hi)
      simpa using this

theorem subNtt_mod (logn : ℕ) (hl : logn ≤ 10) (len flen : ℕ) (h5 : flen + 1 ≤ 521) (F f : List (List ℕ)) (hF : Rows (2 ^ logn) len F) (hf : Rows (2 ^ logn) flen f) (sch scl : ℕ) (hs : scl ≤ 30)
    (k : List ℤ) (hkl : k.length = 2 ^ logn) (hk : ∀ x ∈ k, ∀ u ≤ flen, |x| < ((primeList[u]! : ℕ) : ℤ))
    (hb : ∀ i < 2 ^ logn, 2 * |negCoeff (2 ^ logn) k (f.map sbig) i| < (((primeList.take (flen + 1)).prod : ℕ) : ℤ)) :
    Rows (2 ^ logn) len (polySubScaledNtt F f flen k sch scl logn) ∧ ∀ i < 2 ^ logn,
      (big (polySubScaledNtt F f flen k sch scl logn)[i]! : ℤ) ≡ big F[i]! - negCoeff (2 ^ logn) k (f.map sbig) i * 2 ^ (31 * sch + scl) [ZMOD 2147483648 ^ len] := by
  unfold polySubScaledNtt
  dsimp only
  have lm : (negMul (2 ^ logn) k (f.map sbig)).length = 2 ^ logn := length_negMul _ _ _
  rw [rows_ext (2 ^ logn) (flen + 1) (fun u => kfColumn f k flen logn u) _ lm fun u hu => kfColumn_eq logn hl flen h5 f hf k hkl hk u hu]
  obtain ⟨r1, r2⟩ := rows_low (flen + 1) h5 (negMul (2 ^ logn) k (f.map sbig))
  obtain ⟨g1, g2⟩ := forall2_get _ _ (C101_crt (flen + 1) (by omega) h5 _ r1 r2).2
  generalize zintRebuildCRT _ (flen + 1) primes true = fk at *
  rw [List.length_map, lm] at g1 g2
  have row : ∀ i < 2 ^ logn, (List.zipWith (fun x y => zintSubScaled x y sch scl) F fk)[i]! = zintSubScaled F[i]! fk[i]! sch scl ∧ fk[i]!.length = flen + 1 ∧ Words fk[i]! ∧
      sbig fk[i]! = negCoeff (2 ^ logn) k (f.map sbig) i := by
    intro i hi
    obtain ⟨ly, wy, by', ry⟩ := g2 i hi
    have hz : ((negMul (2 ^ logn) k (f.map sbig)).map (rns (flen + 1)))[i]! = rns (flen + 1) (negCoeff (2 ^ logn) k (f.map sbig) i) := by
      rw [getElem!_pos _ i (by rw [List.length_map, lm]; exact hi), List.getElem_map]
      simp [negMul]
    rw [hz] at ry
    refine ⟨?_, ly, wy, rns_unique (flen + 1) h5 _ _ (by exact_mod_cast by') (hb i hi) ry⟩
    rw [getElem!_pos _ i (by rw [List.length_zipWith, hF.1, ← g1]; simpa using hi), List.getElem_zipWith, getElem!_pos F i (by rw [hF.1]; exact hi), getElem!_pos fk i (by rw [← g1]; exact hi)]
  refine ⟨⟨by rw [List.length_zipWith, hF.1, ← g1, Nat.min_self], fun i hi => ?_⟩, fun i hi => ?_⟩
  · obtain ⟨e, ly, wy, _⟩ := row i hi
    obtain ⟨l, w, _⟩ := subScaled_mod F[i]! fk[i]! (hF.2 i hi).2 wy (by omega) sch scl hs
    rw [e]
    exact ⟨by rw [l, (hF.2 i hi).1], w⟩
  · obtain ⟨e, ly, wy, v⟩ := row i hi
    obtain ⟨l, w, m⟩ := subScaled_mod F[i]! fk[i]! (hF.2 i hi).2 wy (by omega) sch scl hs
    rw [(hF.2 i hi).1, v] at m
    rw [e]
    exact m.trans (modEq_of_eq (by ring))

/-- **C117**: `poly_sub_scaled_ntt` and `poly_sub_scaled` give the same words, as long as the multipliers are below the primes in use and the product fits `flen + 1` primes. -/
theorem C117_ntt (logn : ℕ) (hl : logn ≤ 10) (len flen : ℕ) (h0 : flen ≠ 0) (h5 : flen + 1 ≤ 521) (F f : List (List ℕ)) (hF : Rows (2 ^ logn) len F) (hf : Rows (2 ^ logn) flen f) (sch scl : ℕ) (hs : scl ≤ 30)
    (k : List ℤ) (hkl : k.length = 2 ^ logn) (hk : ∀ x ∈ k, ∀ u ≤ flen, |x| < ((primeList[u]! : ℕ) : ℤ))
    (hb : ∀ i < 2 ^ logn, 2 * |negCoeff (2 ^ logn) k (f.map sbig) i| < (((primeList.take (flen + 1)).prod : ℕ) : ℤ)) :
    polySubScaledNtt F f flen k sch scl logn = polySubScaled F f k sch scl logn := by
  obtain ⟨a1, a2⟩ := subNtt_mod logn hl len flen h5 F f hF hf sch scl hs k hkl hk hb
  have hk' : ∀ x ∈ k, -2147483648 < x ∧ x < 2147483648 := fun x hx => by
    have := abs_lt.1 (hk x hx 0 (by omega))
    have := (modulus_table 0 (by norm_num)).hi
    omega
  obtain ⟨b1, b2⟩ := polySubScaled_mod logn len flen h0 F f hF hf sch scl hs k hkl hk'
  apply List.ext_getElem (by rw [a1.1, b1.1])
  intro i h1 h2
  have hi : i < 2 ^ logn := by rw [a1.1] at h1; exact h1
  have m := (a2 i hi).trans (b2 i hi).symm
  obtain ⟨x1, x2⟩ := a1.2 i hi
  obtain ⟨y1, y2⟩ := b1.2 i hi
  rw [← getElem!_pos _ i h1, ← getElem!_pos _ i h2]
  refine big_inj _ _ x2 y2 (by rw [x1, y1]) ?_
  have ux := big_lt _ x2
  have uy := big_lt _ y2
  rw [x1] at ux
  rw [y1] at uy
  have m' : big (polySubScaledNtt F f flen k sch scl logn)[i]! ≡ big (polySubScaled F f k sch scl logn)[i]! [MOD 2147483648 ^ len] := by
    rw [← Int.natCast_modEq_iff]; push_cast; exact m
  exact Nat.ModEq.eq_of_lt_of_lt m' ux uy

example : (polySubScaledNtt [[100], [200]] [[3], [2147483647]] 1 [2, 5] 0 0 1).map sbig = [89, 187] := by decide +kernel

/-- The bound on the multipliers is needed: keygen.c 3225-3229 admits `|k| ≤ 2^31 - 1`, but `modp_set` needs `|k| < p`; with `k = (2^31 - 2)(1 - x)` and `f = 1` the two functions differ. -/
theorem C117_ntt_range_false : ¬ ∀ (F f : List (List ℕ)) (k : List ℤ), Rows (2 ^ 1) 3 F → Rows (2 ^ 1) 1 f → k.length = 2 ^ 1 → (∀ x ∈ k, |x| < 2 ^ 31 - 1) →
    (∀ i < 2 ^ 1, 2 * |negCoeff (2 ^ 1) k (f.map sbig) i| < (((primeList.take (1 + 1)).prod : ℕ) : ℤ)) → polySubScaledNtt F f 1 k 0 0 1 = polySubScaled F f k 0 0 1 := by
  intro h
  have := h [[100, 5, 0], [0, 0, 0]] [[1], [0]] [2147483646, -2147483646] (by unfold Rows Words; decide) (by unfold Rows Words; decide) rfl (by decide) (by decide +kernel)
  revert this
  decide +kernel

end Verif.CRef.Kg
