import Verif.CRef.DeepestCol
import Verif.CRef.ZintProps

/-! # One step of `make_fg` -/

namespace Verif.CRef.Kg

open Verif.NTT Verif.Ring Verif.Falcon

/-- The residues of an integer modulo the first `len` primes of the table. -/
def rns (len : ℕ) (z : ℤ) : List ℕ := (List.range len).map fun u => (z % ((primeList[u]! : ℕ) : ℤ)).toNat

/-- The rows `x` hold the transforms of the polynomial `a` modulo the first `len` primes. -/
def InNtt (k len : ℕ) (x : List (List ℕ)) (a : List ℤ) : Prop :=
  x.length = 2 ^ k ∧ ∀ u < len, column x u = ntt2 (residues primeList[u]! a) (tabs k u).1 k primeList[u]! (modpNinv31 primeList[u]!)

/-- The rows `x` hold `a` modulo the first `len` primes, with or without NTT. -/
def Rep (ntt : Bool) (k len : ℕ) (x : List (List ℕ)) (a : List ℤ) : Prop := if ntt then InNtt k len x a else x = a.map (rns len)

theorem rns_length (len : ℕ) (z : ℤ) : (rns len z).length = len := by simp [rns]

theorem rns_get (len : ℕ) (z : ℤ) (u : ℕ) (hu : u < len) : (rns len z)[u]! = (z % ((primeList[u]! : ℕ) : ℤ)).toNat := by
  rw [getElem!_pos _ u (by rw [rns_length]; exact hu)]; simp [rns]

theorem column_rns (len : ℕ) (a : List ℤ) (u : ℕ) (hu : u < len) : column (a.map (rns len)) u = residues primeList[u]! a := by
  unfold column residues
  rw [List.map_map]
  exact List.map_congr_left fun z _ => rns_get len z u hu

theorem prod_dvd (D : ℤ) : ∀ c ≤ 521, (∀ i < c, ((primeList[i]! : ℕ) : ℤ) ∣ D) → (((primeList.take c).prod : ℕ) : ℤ) ∣ D
  | 0, _, _ => by simp
  | c + 1, hc, h => by
    have ih := prod_dvd D c (by omega) fun i hi => h i (by omega)
    have E := C91_primes c (by omega)
    have hF : Fact (primeList[c]!).Prime := ⟨E.prime⟩
    rw [prod_succ c (by omega)]
    rw [Nat.cast_mul]
    have co : Nat.Coprime (primeList.take c).prod primeList[c]! := by
      rw [Nat.coprime_comm, Nat.Prime.coprime_iff_not_dvd E.prime]
      intro hd
      have z : (((primeList.take c).prod : ℕ) : ZMod primeList[c]!) = 0 := (ZMod.natCast_eq_zero_iff _ _).2 hd
      have e := E.inv
      rw [z, mul_zero] at e
      exact Rf_ne (modulus_table c (by omega)) e.symm
    exact (Nat.isCoprime_iff_coprime.2 co).mul_dvd ih (h c (by omega))

/-- An integer below half the product is determined by its residues. -/
theorem rns_unique (c : ℕ) (hc : c ≤ 521) (y z : ℤ) (hy : 2 * |y| < (((primeList.take c).prod : ℕ) : ℤ)) (hz : 2 * |z| < (((primeList.take c).prod : ℕ) : ℤ)) (h : ∀ i < c, y % ((primeList[i]! : ℕ) : ℤ) = (rns c z)[i]!) : y = z := by
  have d : (((primeList.take c).prod : ℕ) : ℤ) ∣ y - z := prod_dvd _ c hc fun i hi => by
    have e := h i hi
    rw [rns_get c z i hi, Int.toNat_of_nonneg (Int.emod_nonneg _ (by have := p_pos (modulus_table i (by omega)); omega))] at e
    exact Int.dvd_of_emod_eq_zero (Int.emod_eq_emod_iff_emod_sub_eq_zero.1 e)
  have := Int.eq_zero_of_abs_lt_dvd d (by
    have := abs_sub y z
    omega)
  omega

theorem forall2_map {α β γ δ : Type} [Inhabited δ] {R : β → γ → Prop} (f : α → β) (g : γ → δ) (h : α → δ) : ∀ (a : List α) (l : List γ), List.Forall₂ R (a.map f) l → (∀ x ∈ a, ∀ y, R (f x) y → g y = h x) →
    l.map g = a.map h
  | [], [], _, _ => rfl
  | x :: a, y :: l, H, k => by
    rw [List.map_cons, List.forall₂_cons] at H
    rw [List.map_cons, List.map_cons, k x (by simp) y H.1, forall2_map f g h a l H.2 fun x hx => k x (by simp [hx])]

theorem rows_low (slen : ℕ) (h5 : slen ≤ 521) (a : List ℤ) : (∀ o ∈ a.map (rns slen), o.length = slen) ∧ ∀ o ∈ a.map (rns slen), ∀ i < slen, o[i]! < primeList[i]! := by
  refine ⟨fun o ho => ?_, fun o ho i hi => ?_⟩
  · obtain ⟨z, _, rfl⟩ := List.mem_map.1 ho
    exact rns_length _ _
  · obtain ⟨z, _, rfl⟩ := List.mem_map.1 ho
    rw [rns_get _ _ _ hi]
    exact (toNat_mod (p_pos (modulus_table i (by omega))) z).1

/-- The rebuilt integers, reduced modulo another prime. -/
theorem rebuilt (slen : ℕ) (h1 : 1 ≤ slen) (h5 : slen ≤ 521) (a : List ℤ) (hb : ∀ z ∈ a, 2 * |z| < (((primeList.take slen).prod : ℕ) : ℤ)) (u : ℕ) (hu : u < 521) :
    (zintRebuildCRT (a.map (rns slen)) slen primes true).map (fun o => zintModSmallSigned o primeList[u]! (modpNinv31 primeList[u]!) (modpR2 primeList[u]! (modpNinv31 primeList[u]!))
      (modpRx slen primeList[u]! (modpNinv31 primeList[u]!) (modpR2 primeList[u]! (modpNinv31 primeList[u]!)))) = residues primeList[u]! a := by
  obtain ⟨r1, r2⟩ := rows_low slen h5 a
  have f := (C101_crt slen h1 h5 _ r1 r2).2
  refine forall2_map _ _ _ a _ f fun z hz y ⟨ly, wy, by', ry⟩ => ?_
  have e : sbig y = z := rns_unique slen h5 _ z (by exact_mod_cast by') (hb z hz) ry
  have m := (C101_mod_small u hu y wy (by omega)).2
  rw [ly, e] at m
  omega

theorem rows_ext (n len : ℕ) (c : ℕ → List ℕ) (a : List ℤ) (la : a.length = n) (h : ∀ u < len, c u = residues primeList[u]! a) :
    ((List.range n).map fun v => (List.range len).map fun u => (c u)[v]!) = a.map (rns len) := by
  apply List.ext_getElem (by simp [la])
  intro v h1 h2
  have hv : v < a.length := by simpa using h2
  rw [List.getElem_map, List.getElem_map, List.getElem_range]
  unfold rns
  apply List.map_congr_left
  intro u hu
  rw [h u (List.mem_range.1 hu), getElem!_pos _ v (by rw [residues_length]; exact hv)]
  unfold residues
  rw [List.getElem_map]

theorem column_rows (n len : ℕ) (c : ℕ → List ℕ) (u : ℕ) (hu : u < len) (lc : (c u).length = n) : column ((List.range n).map fun v => (List.range len).map fun u => (c u)[v]!) u = c u := by
  unfold column
  apply List.ext_getElem (by simp [lc])
  intro v h1 h2
  rw [List.getElem_map, List.getElem_map, List.getElem_range, getElem!_pos _ u (by simpa using hu), List.getElem_map, List.getElem_range, getElem!_pos _ v h2]

theorem root_table (u : ℕ) (hu : u < 521) : Root primeList[u]! (primes[u]!).2.1 := ⟨(C91_primes u hu).glt, (C91_primes u hu).root⟩

theorem tabs_eq (k u : ℕ) (hu : u < 521) : tabs k u = mkgm2 (List.replicate (2 ^ k) 0) (List.replicate (2 ^ k) 0) k (primes[u]!).2.1 primeList[u]! (modpNinv31 primeList[u]!) := by
  unfold tabs; rw [primes_fst u hu]

theorem tabs_law (k : ℕ) (hk : k ≤ 10) (u : ℕ) (hu : u < 521) :
    Law primeList[u]! k (psi primeList[u]! (tabs k u).1) (psi primeList[u]! (tabs k u).2) ∧ CanonP primeList[u]! (tabs k u).1 ∧ CanonP primeList[u]! (tabs k u).2 := by
  rw [tabs_eq k u hu]
  exact law_mkgm2 (modulus_table u hu) k hk _ _ (by simp) (by simp) _ (root_table u hu)

theorem fgColumn_eq (k : ℕ) (hk : k + 1 ≤ 10) (u : ℕ) (hu : u < 521) (o : Bool) (a : List ℤ) (la : a.length = 2 ^ (k + 1)) :
    fgColumn (k + 1) u o (ntt2 (residues primeList[u]! a) (tabs (k + 1) u).1 (k + 1) primeList[u]! (modpNinv31 primeList[u]!)) =
      if o then ntt2 (residues primeList[u]! (fieldNorm a)) (tabs k u).1 k primeList[u]! (modpNinv31 primeList[u]!) else residues primeList[u]! (fieldNorm a) := by
  have M := modulus_table u hu
  obtain ⟨L, c1, c2⟩ := tabs_law (k + 1) hk u hu
  have lN : (fieldNorm a).length = 2 ^ k := by rw [length_fieldNorm, la, pow_succ]; omega
  unfold fgColumn
  dsimp only
  rw [primes_fst u hu, show 2 ^ (k + 1) / 2 = 2 ^ k by rw [pow_succ]; omega, show k + 1 - 1 = k by omega, halfProd_norm M L c1 a la, ntt_back M (by omega) (law_mono L) c1 c2 _ lN]
  split
  · rw [tabs_eq _ u hu, tabs_eq _ u hu]
    exact tab_swap M k hk _ _ _ _ (by simp) (by simp) (by simp) (by simp) _ (root_table u hu) _ lN
  · rfl

theorem step_ok (k : ℕ) (hk : k + 1 ≤ 10) (depth : ℕ) (h1 : 1 ≤ maxBlSmall[depth]!) (h5 : maxBlSmall[depth]! ≤ 521) (h6 : maxBlSmall[depth + 1]! ≤ 521) (x : List (List ℕ)) (a : List ℤ) (la : a.length = 2 ^ (k + 1))
    (hb : ∀ z ∈ a, 2 * |z| < (((primeList.take maxBlSmall[depth]!).prod : ℕ) : ℤ)) (i o : Bool) (h : Rep i (k + 1) maxBlSmall[depth]! x a) :
    Rep o k maxBlSmall[depth + 1]! (makeFgStep x (k + 1) depth i o) (fieldNorm a) := by
  unfold makeFgStep
  dsimp only
  generalize maxBlSmall[depth]! = slen at *
  generalize maxBlSmall[depth + 1]! = tlen at *
  have lN : (fieldNorm a).length = 2 ^ k := by rw [length_fieldNorm, la, pow_succ]; omega
  have low : ∀ u < slen, lowNtt x (k + 1) u i = ntt2 (residues primeList[u]! a) (tabs (k + 1) u).1 (k + 1) primeList[u]! (modpNinv31 primeList[u]!) := by
    intro u hu
    unfold lowNtt
    dsimp only
    rw [primes_fst u (by omega)]
    cases i with
    | true => rw [if_pos rfl]; exact h.2 u hu
    | false =>
      rw [if_neg (by decide)]
      have h' : x = a.map (rns slen) := h
      rw [h', column_rns slen a u hu]
  have src : fgSource x (k + 1) slen i = a.map (rns slen) := by
    unfold fgSource
    cases i with
    | true =>
      rw [if_pos rfl]
      refine rows_ext (2 ^ (k + 1)) slen (fun u => intt2 (column x u) (tabs (k + 1) u).2 (k + 1) (primes[u]!).1 (modpNinv31 (primes[u]!).1)) a la fun u hu => ?_
      obtain ⟨L, c1, c2⟩ := tabs_law (k + 1) hk u (by omega)
      rw [primes_fst u (by omega), h.2 u hu]
      exact ntt_back (modulus_table u (by omega)) hk L c1 c2 a la
    | false => rw [if_neg (by decide)]; exact h
  have high : ∀ u < tlen, highNtt (zintRebuildCRT (fgSource x (k + 1) slen i) slen primes true) (k + 1) slen u = ntt2 (residues primeList[u]! a) (tabs (k + 1) u).1 (k + 1) primeList[u]! (modpNinv31 primeList[u]!) := by
    intro u hu
    unfold highNtt
    dsimp only
    rw [primes_fst u (by omega), src, rebuilt slen h1 h5 a hb u (by omega)]
  have col : ∀ u < tlen, fgColumn (k + 1) u o (if u < slen then lowNtt x (k + 1) u i else highNtt (zintRebuildCRT (fgSource x (k + 1) slen i) slen primes true) (k + 1) slen u) =
      if o then ntt2 (residues primeList[u]! (fieldNorm a)) (tabs k u).1 k primeList[u]! (modpNinv31 primeList[u]!) else residues primeList[u]! (fieldNorm a) := by
    intro u hu
    rw [← fgColumn_eq k hk u (by omega) o a la]
    congr 1
    split
    · next c => exact low u c
    · exact high u hu
  rw [show 2 ^ (k + 1) / 2 = 2 ^ k by rw [pow_succ]; omega]
  obtain ⟨c, hc⟩ : ∃ c : ℕ → List ℕ, c = fun u => fgColumn (k + 1) u o (if u < slen then lowNtt x (k + 1) u i else highNtt (zintRebuildCRT (fgSource x (k + 1) slen i) slen primes true) (k + 1) slen u) := ⟨_, rfl⟩
  have goal : Rep o k tlen ((List.range (2 ^ k)).map fun v => (List.range tlen).map fun u => (c u)[v]!) (fieldNorm a) := by
    rw [hc]
    unfold Rep
    cases o with
    | true =>
      rw [if_pos rfl]
      refine ⟨by simp, fun u hu => ?_⟩
      have e := col u hu
      rw [if_pos rfl] at e
      rw [column_rows (2 ^ k) tlen _ u hu (by
        rw [e]
        obtain ⟨L, c1, c2⟩ := tabs_law k (by omega) u (by omega)
        exact (ntt_eval (modulus_table u (by omega)) L c1 _ lN).1)]
      exact e
    | false =>
      rw [if_neg (by decide)]
      refine rows_ext (2 ^ k) tlen _ _ lN fun u hu => ?_
      have e := col u hu
      rw [if_neg Bool.false_ne_true] at e
      exact e
  rw [hc] at goal
  exact goal

end Verif.CRef.Kg
