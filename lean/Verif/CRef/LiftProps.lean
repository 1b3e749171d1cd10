import Verif.CRef.Lift
import Verif.CRef.ReduceProps
import Verif.CRef.DeepestProps

/-! # C118: an intermediate level of the NTRU solver -/

namespace Verif.CRef.Kg

open Verif.NTT Verif.Ring Verif.Falcon

variable {p p0i : ℕ}

theorem crt_values (s : ℕ) (h1 : 1 ≤ s) (h5 : s ≤ 521) (a : List ℤ) (hb : ∀ z ∈ a, 2 * |z| < (((primeList.take s).prod : ℕ) : ℤ)) :
    Rows a.length s (zintRebuildCRT (a.map (rns s)) s primes true) ∧ (zintRebuildCRT (a.map (rns s)) s primes true).map sbig = a := by
  obtain ⟨r1, r2⟩ := rows_low s h5 a
  obtain ⟨g1, g2⟩ := forall2_get _ _ (C101_crt s h1 h5 _ r1 r2).2
  generalize zintRebuildCRT _ s primes true = y at *
  rw [List.length_map] at g1 g2
  refine ⟨⟨g1.symm, fun i hi => ⟨(g2 i hi).1, (g2 i hi).2.1⟩⟩, ?_⟩
  apply List.ext_getElem (by rw [List.length_map, g1])
  intro i h h'
  obtain ⟨ly, wy, by', ry⟩ := g2 i h'
  have hz : (a.map (rns s))[i]! = rns s a[i] := by rw [getElem!_pos _ i (by rw [List.length_map]; exact h'), List.getElem_map]
  rw [hz] at ry
  rw [List.getElem_map, ← getElem!_pos y i (by omega)]
  exact rns_unique s h5 _ _ (by exact_mod_cast by') (hb _ (List.getElem_mem h')) ry

/-- The polynomial `F'(x^2) g(-x)` of the unreduced level. -/
def lifted (n : ℕ) (F' g : List ℤ) : List ℤ := negMul n (lift F') (galoisConjugate g)

theorem lift_ntt (M : Modulus p p0i) {k : ℕ} {G : List ℕ} {ps' : ℕ → ℕ} (L : Law p (k + 1) (psi p G) ps') (hg : CanonP p G) (g F' : List ℤ) (lg : g.length = 2 ^ (k + 1)) (lF : F'.length = 2 ^ k) :
    ((List.range (2 ^ (k + 1))).map fun w => modpMontymul (ntt2 (residues p g) G (k + 1) p p0i)[if w % 2 = 0 then w + 1 else w - 1]!
      (modpMontymul (ntt2 (residues p F') G k p p0i)[w / 2]! (modpR2 p p0i) p p0i) p p0i) = ntt2 (residues p (lifted (2 ^ (k + 1)) F' g)) G (k + 1) p p0i := by
  obtain ⟨l1, c1, e1⟩ := ntt_eval M L hg g lg
  obtain ⟨l2, c2, e2⟩ := ntt_eval M (law_mono L) hg F' lF
  obtain ⟨l3, c3, e3⟩ := ntt_eval M L hg (lifted (2 ^ (k + 1)) F' g) (length_negMul _ _ _)
  have hp : 2 ^ (k + 1) = 2 * 2 ^ k := by rw [pow_succ]; ring
  have hF : Fact p.Prime := ⟨M.prime⟩
  have h3 := modpR2_eq M
  have val : ∀ a b : ℕ, a < p → b < p → modpMontymul a (modpMontymul b (modpR2 p p0i) p p0i) p p0i < p ∧ ((modpMontymul a (modpMontymul b (modpR2 p p0i) p p0i) p p0i : ℕ) : ZMod p) = a * b := by
    intro a b ha hb
    have t1 := montymul_lt M _ _ hb h3.1
    have t2 := cast_mm M _ _ hb h3.1
    rw [h3.2, ← mul_assoc] at t2
    have t3 := mul_right_cancel₀ (Rf_ne M) t2
    have t4 := cast_mm M _ _ ha t1
    rw [t3, ← mul_assoc] at t4
    exact ⟨montymul_lt M _ _ ha t1, mul_right_cancel₀ (Rf_ne M) t4⟩
  have get : ∀ w < 2 ^ (k + 1), ((List.range (2 ^ (k + 1))).map fun w => modpMontymul (ntt2 (residues p g) G (k + 1) p p0i)[if w % 2 = 0 then w + 1 else w - 1]!
      (modpMontymul (ntt2 (residues p F') G k p p0i)[w / 2]! (modpR2 p p0i) p p0i) p p0i)[w]! = modpMontymul (ntt2 (residues p g) G (k + 1) p p0i)[if w % 2 = 0 then w + 1 else w - 1]!
      (modpMontymul (ntt2 (residues p F') G k p p0i)[w / 2]! (modpR2 p p0i) p p0i) p p0i := by
    intro w hw
    rw [getElem!_pos _ w (by simpa using hw)]; simp
  apply list_eq_of_res (q := p) _ _ (by rw [l3]; simp)
  · intro w hw
    have hw : w < 2 ^ (k + 1) := by simpa using hw
    rw [get w hw]; exact (val _ _ (c1 _) (c2 _)).1
  · exact fun w _ => c3 w
  · intro w hw
    have hw : w < 2 ^ (k + 1) := by simpa using hw
    unfold NTT.res
    have r1 := L.node_pow w hw
    rw [get w hw, (val _ _ (c1 _) (c2 _)).2, e3 w hw, e1 _ (by split <;> omega), e2 _ (by omega)]
    unfold lifted
    rw [ev_negMul _ _ r1 _ _ (by rw [length_lift, lF, hp]) (by rw [length_galois, lg]), ev_lift, ev_galois]
    have pk := Nat.two_pow_pos k
    have nd : ∀ j, node (fun i => (psi p G i : ZMod p)) j = if j % 2 = 0 then (psi p G (j / 2) : ZMod p) else -(psi p G (j / 2) : ZMod p) := fun j => rfl
    have sq := L.sq (2 ^ k + w / 2) (by omega) (by omega)
    rcases Nat.mod_two_eq_zero_or_one w with c | c
    · rw [if_pos c]
      have q1 : node (fun i => (psi p G i : ZMod p)) (2 ^ (k + 1) + w) = psi p G (2 ^ k + w / 2) := by
        rw [nd, if_pos (by omega), show (2 ^ (k + 1) + w) / 2 = 2 ^ k + w / 2 by omega]
      have q2 : node (fun i => (psi p G i : ZMod p)) (2 ^ (k + 1) + (w + 1)) = -(psi p G (2 ^ k + w / 2) : ZMod p) := by
        rw [nd, if_neg (by omega), show (2 ^ (k + 1) + (w + 1)) / 2 = 2 ^ k + w / 2 by omega]
      rw [q1, q2, ← sq]
      ring
    · rw [if_neg (by omega)]
      have q1 : node (fun i => (psi p G i : ZMod p)) (2 ^ (k + 1) + w) = -(psi p G (2 ^ k + w / 2) : ZMod p) := by
        rw [nd, if_neg (by omega), show (2 ^ (k + 1) + w) / 2 = 2 ^ k + w / 2 by omega]
      have q2 : node (fun i => (psi p G i : ZMod p)) (2 ^ (k + 1) + (w - 1)) = psi p G (2 ^ k + w / 2) := by
        rw [nd, if_pos (by omega), show (2 ^ (k + 1) + (w - 1)) / 2 = 2 ^ k + w / 2 by omega]
      rw [q1, q2, ← sq, neg_neg, neg_sq]
      ring

theorem sourceRows_eq (k slen : ℕ) (hk : k ≤ 10) (h1 : 1 ≤ slen) (h5 : slen ≤ 521) (ft : List (List ℕ)) (a : List ℤ) (la : a.length = 2 ^ k) (h : InNtt k slen ft a) (hb : ∀ z ∈ a, 2 * |z| < (((primeList.take slen).prod : ℕ) : ℤ)) :
    Rows (2 ^ k) slen (sourceRows ft k slen) ∧ (sourceRows ft k slen).map sbig = a ∧
      ∀ u < 521, sourceNtt ft k slen u = ntt2 (residues primeList[u]! a) (tabs k u).1 k primeList[u]! (modpNinv31 primeList[u]!) := by
  have src : fgSource ft k slen true = a.map (rns slen) := by
    unfold fgSource
    rw [if_pos rfl]
    refine rows_ext (2 ^ k) slen (fun u => intt2 (column ft u) (tabs k u).2 k (primes[u]!).1 (modpNinv31 (primes[u]!).1)) a la fun u hu => ?_
    obtain ⟨L, c1, c2⟩ := tabs_law k hk u (by omega)
    rw [primes_fst u (by omega), h.2 u hu]
    exact ntt_back (modulus_table u (by omega)) hk L c1 c2 a la
  obtain ⟨q1, q2⟩ := crt_values slen h1 h5 a hb
  rw [la] at q1
  unfold sourceNtt
  have e : sourceRows ft k slen = zintRebuildCRT (a.map (rns slen)) slen primes true := by unfold sourceRows; rw [src]
  rw [e]
  refine ⟨q1, q2, fun u hu => ?_⟩
  split
  · next c => exact h.2 u c
  · unfold highNtt
    dsimp only
    rw [primes_fst u hu, rebuilt slen h1 h5 a hb u hu]

theorem liftRows_eq (k slen dlen llen : ℕ) (hk : k + 1 ≤ 10) (h1 : 1 ≤ slen) (h5 : slen ≤ 521) (d5 : dlen ≤ 521) (l1 : 1 ≤ llen) (l5 : llen ≤ 521) (gt : List (List ℕ)) (g : List ℤ) (lg : g.length = 2 ^ (k + 1)) (h : InNtt (k + 1) slen gt g)
    (hb : ∀ z ∈ g, 2 * |z| < (((primeList.take slen).prod : ℕ) : ℤ)) (Fd : List (List ℕ)) (hF : Rows (2 ^ k) dlen Fd)
    (hbF : ∀ z ∈ lifted (2 ^ (k + 1)) (Fd.map sbig) g, 2 * |z| < (((primeList.take llen).prod : ℕ) : ℤ)) :
    Rows (2 ^ (k + 1)) llen (liftRows gt Fd (k + 1) slen dlen llen) ∧ (liftRows gt Fd (k + 1) slen dlen llen).map sbig = lifted (2 ^ (k + 1)) (Fd.map sbig) g := by
  have lT : (lifted (2 ^ (k + 1)) (Fd.map sbig) g).length = 2 ^ (k + 1) := length_negMul _ _ _
  have col : ∀ u < llen, liftColumn (sourceNtt gt (k + 1) slen u) Fd (k + 1) dlen u = residues primeList[u]! (lifted (2 ^ (k + 1)) (Fd.map sbig) g) := by
    intro u hu
    have M := modulus_table u (by omega)
    obtain ⟨L, c1, c2⟩ := tabs_law (k + 1) hk u (by omega)
    rw [(sourceRows_eq (k + 1) slen hk h1 h5 gt g lg h hb).2.2 u (by omega)]
    unfold liftColumn
    dsimp only
    rw [primes_fst u (by omega)]
    have e2 : (Fd.map fun y => zintModSmallSigned y primeList[u]! (modpNinv31 primeList[u]!) (modpR2 primeList[u]! (modpNinv31 primeList[u]!))
        (modpRx dlen primeList[u]! (modpNinv31 primeList[u]!) (modpR2 primeList[u]! (modpNinv31 primeList[u]!)))) = residues primeList[u]! (Fd.map sbig) := by
      unfold residues
      rw [List.map_map]
      apply List.map_congr_left
      intro y hy
      obtain ⟨ly, wy⟩ := rows_map _ _ Fd hF y hy
      have m := (C101_mod_small u (by omega) y wy (by omega)).2
      rw [ly] at m
      show _ = (sbig y % _).toNat
      omega
    rw [e2, show k + 1 - 1 = k by omega, lift_ntt M L c1 g (Fd.map sbig) lg (by rw [List.length_map, hF.1]), ntt_back M hk L c1 c2 _ lT]
  unfold liftRows
  rw [rows_ext (2 ^ (k + 1)) llen (fun u => liftColumn (sourceNtt gt (k + 1) slen u) Fd (k + 1) dlen u) _ lT col]
  obtain ⟨q1, q2⟩ := crt_values llen l1 l5 _ hbF
  rw [lT] at q1
  exact ⟨q1, q2⟩

/-- With `F = F'(x^2) g(-x)` and `G = G'(x^2) f(-x)`, the polynomial `f G - g F` is `N(f) G' - N(g) F'` at `x^2`. -/
theorem lifted_eq (k : ℕ) (f g F' G' : List ℤ) (lf : f.length = 2 ^ (k + 1)) (lg : g.length = 2 ^ (k + 1)) (lF : F'.length = 2 ^ k) (lG : G'.length = 2 ^ k) (q : ℤ)
    (h : ∀ i < 2 ^ k, negCoeff (2 ^ k) (fieldNorm f) G' i - negCoeff (2 ^ k) (fieldNorm g) F' i = if i = 0 then q else 0) (i : ℕ) (hi : i < 2 ^ (k + 1)) :
    negCoeff (2 ^ (k + 1)) f (lifted (2 ^ (k + 1)) G' f) i - negCoeff (2 ^ (k + 1)) g (lifted (2 ^ (k + 1)) F' g) i = if i = 0 then q else 0 := by
  have hp : 2 ^ (k + 1) = 2 * 2 ^ k := by rw [pow_succ]; ring
  have lN : ∀ a : List ℤ, a.length = 2 ^ (k + 1) → (fieldNorm a).length = 2 ^ k := fun a ha => by rw [length_fieldNorm, ha, hp]; omega
  obtain ⟨r, hr⟩ : ∃ r, r = rt ℤ (2 ^ (k + 1)) := ⟨_, rfl⟩
  have rp : r ^ 2 ^ (k + 1) = -1 := by rw [hr]; exact rt_pow _
  have rp2 : (r ^ 2) ^ 2 ^ k = -1 := by rw [← pow_mul, ← hp, rp]
  have ez : ∀ (n : ℕ) (x : AdjoinRoot (Polynomial.X ^ (2 ^ (k + 1)) + 1 : Polynomial ℤ)) (c : ℕ → ℤ), 0 < n → (∀ i < n, c i = if i = 0 then q else 0) → ev x ((List.range n).map c) = (algebraMap ℤ _ q) := by
    intro n x c hn hc
    rw [ev_map_range, Finset.sum_eq_single 0]
    · rw [hc 0 hn]; simp
    · intro b hb hb0
      rw [hc b (Finset.mem_range.1 hb), if_neg hb0]; simp
    · intro hh; exact absurd (Finset.mem_range.2 hn) hh
  have sub : ∀ (n : ℕ) (x : AdjoinRoot (Polynomial.X ^ (2 ^ (k + 1)) + 1 : Polynomial ℤ)) (a b c d : List ℤ), ev x ((List.range n).map fun i => negCoeff n a b i - negCoeff n c d i) = ev x (negMul n a b) - ev x (negMul n c d) := by
    intro n x a b c d
    unfold negMul
    rw [ev_map_range, ev_map_range, ev_map_range, ← Finset.sum_sub_distrib]
    refine Finset.sum_congr rfl fun i _ => ?_
    rw [map_sub]; ring
  have e1 := ez (2 ^ k) (r ^ 2) _ (Nat.two_pow_pos k) h
  rw [sub, ev_negMul _ _ rp2 _ _ (lN f lf) lG, ev_negMul _ _ rp2 _ _ (lN g lg) lF, ev_fieldNorm k f lf r rp, ev_fieldNorm k g lg r rp] at e1
  have lT : ∀ a b : List ℤ, (lifted (2 ^ (k + 1)) a b).length = 2 ^ (k + 1) := fun a b => length_negMul _ _ _
  have e2 : ev r ((List.range (2 ^ (k + 1))).map fun i => negCoeff (2 ^ (k + 1)) f (lifted (2 ^ (k + 1)) G' f) i - negCoeff (2 ^ (k + 1)) g (lifted (2 ^ (k + 1)) F' g) i) = algebraMap ℤ _ q := by
    rw [sub, ev_negMul _ _ rp _ _ lf (lT _ _), ev_negMul _ _ rp _ _ lg (lT _ _), ← e1]
    unfold lifted
    rw [ev_negMul _ _ rp _ _ (by rw [length_lift, lG, hp]) (by rw [length_galois, lf]), ev_negMul _ _ rp _ _ (by rw [length_lift, lF, hp]) (by rw [length_galois, lg]), ev_lift, ev_lift, ev_galois, ev_galois]
    ring
  have e3 : ev r ((List.range (2 ^ (k + 1))).map fun i => if i = 0 then q else 0) = algebraMap ℤ _ q := ez _ r _ (Nat.two_pow_pos _) fun _ _ => rfl
  rw [hr] at e2 e3
  have := list_eq_of_ev _ (Nat.two_pow_pos (k + 1)) _ _ (by simp) (by simp) (e2.trans e3.symm)
  have t := congrArg (fun l : List ℤ => l[i]?) this
  simpa [List.getElem?_range hi] using t

/-- **C118**: from a solution of the NTRU equation for the field norms, of degree `n/2`, an intermediate level makes one for degree `n`, modulo `2^31` to the number of words of the result, whatever multipliers the floating-point part chooses. -/
theorem C118_intermediate (lognTop depth : ℕ) (hd : depth < lognTop) (ht : lognTop ≤ 10) (f g : List ℤ) (lf : f.length = 2 ^ lognTop) (lg : g.length = 2 ^ lognTop) (hf : ∀ z ∈ f, -128 ≤ z ∧ z ≤ 127) (hg : ∀ z ∈ g, -128 ≤ z ∧ z ≤ 127)
    (bf : FitsLevels (depth + 1) f) (bg : FitsLevels (depth + 1) g) (Fd Gd : List (List ℕ)) (hF : Rows (2 ^ (lognTop - depth - 1)) maxBlSmall[depth + 1]! Fd) (hG : Rows (2 ^ (lognTop - depth - 1)) maxBlSmall[depth + 1]! Gd) (q : ℤ)
    (hq : ∀ i < 2 ^ (lognTop - depth - 1), negCoeff (2 ^ (lognTop - depth - 1)) (fieldNorm^[depth + 1] f) (Gd.map sbig) i - negCoeff (2 ^ (lognTop - depth - 1)) (fieldNorm^[depth + 1] g) (Fd.map sbig) i = if i = 0 then q else 0)
    (hbF : ∀ z ∈ lifted (2 ^ (lognTop - depth)) (Fd.map sbig) (fieldNorm^[depth] g), 2 * |z| < (((primeList.take maxBlLarge[depth]!).prod : ℕ) : ℤ))
    (hbG : ∀ z ∈ lifted (2 ^ (lognTop - depth)) (Gd.map sbig) (fieldNorm^[depth] f), 2 * |z| < (((primeList.take maxBlLarge[depth]!).prod : ℕ) : ℤ))
    (mult : List (List ℕ) → List (List ℕ) → ReduceSt → ℕ → Option (List ℤ))
    (hm : ∀ fs gs, fs.map sbig = fieldNorm^[depth] f → gs.map sbig = fieldNorm^[depth] g → GoodMult depth (lognTop - depth) fs gs (mult fs gs))
    (F G : List (List ℕ)) (run : solveIntermediate lognTop depth f g Fd Gd mult = some (F, G)) :
    Rows (2 ^ (lognTop - depth)) maxBlSmall[depth]! F ∧ Rows (2 ^ (lognTop - depth)) maxBlSmall[depth]! G ∧
    ∀ i < 2 ^ (lognTop - depth), negCoeff (2 ^ (lognTop - depth)) (fieldNorm^[depth] f) (G.map sbig) i - negCoeff (2 ^ (lognTop - depth)) (fieldNorm^[depth] g) (F.map sbig) i ≡ (if i = 0 then q else 0) [ZMOD 2 ^ (31 * usedWords depth)] := by
  have mf := C114_make_fg lognTop depth ht hd.le true f lf hf fun d h => bf d (by omega)
  have mg := C114_make_fg lognTop depth ht hd.le true g lg hg fun d h => bg d (by omega)
  have nf := norm_length lognTop f lf depth hd.le
  have ng := norm_length lognTop g lg depth hd.le
  have b1 := bf depth (by omega)
  have b2 := bg depth (by omega)
  have s1 := bl_small depth (by omega)
  have s2 := bl_small (depth + 1) (by omega)
  have s3 := (by decide : ∀ d < 10, 1 ≤ maxBlLarge[d]! ∧ maxBlLarge[d]! ≤ 521) depth (by omega)
  rw [Function.iterate_succ_apply', Function.iterate_succ_apply'] at hq
  unfold solveIntermediate at run
  dsimp only at run
  unfold Rep at mf mg
  rw [if_pos rfl] at mf mg
  generalize makeFg f lognTop depth true = ft at *
  generalize makeFg g lognTop depth true = gt at *
  generalize fieldNorm^[depth] f = f' at *
  generalize fieldNorm^[depth] g = g' at *
  obtain ⟨k, hk⟩ : ∃ k, lognTop - depth = k + 1 := ⟨lognTop - depth - 1, by omega⟩
  have hk10 : k + 1 ≤ 10 := by omega
  generalize lognTop - depth = L at *
  subst hk
  have hk1 : k + 1 - 1 = k := by omega
  rw [hk1] at hF hG hq
  obtain ⟨f1, f2, -⟩ := sourceRows_eq (k + 1) _ (by omega) s1.1 (by omega) ft f' nf mf b1
  obtain ⟨g1, g2, -⟩ := sourceRows_eq (k + 1) _ (by omega) s1.1 (by omega) gt g' ng mg b2
  obtain ⟨F1, F2⟩ := liftRows_eq k _ _ _ (by omega) s1.1 (by omega) (by omega) s3.1 s3.2 gt g' ng mg b2 Fd hF hbF
  obtain ⟨G1, G2⟩ := liftRows_eq k _ _ _ (by omega) s1.1 (by omega) (by omega) s3.1 s3.2 ft f' nf mf b1 Gd hG hbG
  obtain ⟨r1, r2, r3, -⟩ := C117_reduce depth (k + 1) (by omega) (by omega) _ _ _ _ f1 g1 F1 G1 _ (hm _ _ f2 g2) F G run
  refine ⟨r1, r2, fun i hi => ?_⟩
  have h := r3 i hi
  unfold det at h
  rw [f2, g2, F2, G2, lifted_eq k f' g' (Fd.map sbig) (Gd.map sbig) nf ng (by rw [List.length_map, hF.1]) (by rw [List.length_map, hG.1]) q hq i hi] at h
  exact h

/-- It is a solution outright if `f G - g F` fits the words of the result, as it does when `F` and `G` come out short. -/
theorem C118_exact (n m : ℕ) (f g F G : List ℤ) (q : ℤ) (hq : 2 * |q| < 2 ^ (31 * m)) (h : ∀ i < n, negCoeff n f G i - negCoeff n g F i ≡ (if i = 0 then q else 0) [ZMOD 2 ^ (31 * m)])
    (b : ∀ i < n, 2 * |negCoeff n f G i - negCoeff n g F i| < 2 ^ (31 * m)) (i : ℕ) (hi : i < n) : negCoeff n f G i - negCoeff n g F i = if i = 0 then q else 0 := by
  have c := Int.modEq_iff_dvd.1 (h i hi).symm
  have bi := b i hi
  have t := abs_sub (negCoeff n f G i - negCoeff n g F i) (if i = 0 then q else 0)
  have u : 2 * |if i = 0 then q else 0| < 2 ^ (31 * m) := by
    split
    · exact hq
    · rw [abs_zero]; positivity
  generalize (2 : ℤ) ^ (31 * m) = B at *
  have z := Int.eq_zero_of_abs_lt_dvd c (by linarith)
  linarith

/-- A concrete case at depth 0, degree 2: `f = 1 + x`, `g = 1 + 2x` with norms 2 and 5, `2 * 6147 - 5 * 1 = 12289`; the last round subtracts `f` and `g` once. -/
example : FitsLevels (0 + 1) [1, 1] ∧ FitsLevels (0 + 1) [1, 2] ∧ Rows (2 ^ (1 - 0 - 1)) maxBlSmall[0 + 1]! [[1]] ∧ Rows (2 ^ (1 - 0 - 1)) maxBlSmall[0 + 1]! [[6147]] ∧
    (∀ i < 2 ^ (1 - 0 - 1), negCoeff (2 ^ (1 - 0 - 1)) (fieldNorm^[0 + 1] [1, 1]) ([[6147]].map sbig) i - negCoeff (2 ^ (1 - 0 - 1)) (fieldNorm^[0 + 1] [1, 2]) ([[1]].map sbig) i = if i = 0 then 12289 else 0) ∧
    (∀ z ∈ lifted (2 ^ (1 - 0)) ([[1]].map sbig) (fieldNorm^[0] [1, 2]), 2 * |z| < (((primeList.take maxBlLarge[0]!).prod : ℕ) : ℤ)) ∧
    (∀ z ∈ lifted (2 ^ (1 - 0)) ([[6147]].map sbig) (fieldNorm^[0] [1, 1]), 2 * |z| < (((primeList.take maxBlLarge[0]!).prod : ℕ) : ℤ)) ∧
    (∀ fs gs, fs.map sbig = fieldNorm^[0] [1, 1] → gs.map sbig = fieldNorm^[0] [1, 2] → GoodMult 0 (1 - 0) fs gs fun _ s => if s = 0 then some [1, 0] else some [0, 0]) ∧
    solveIntermediate 1 0 [1, 1] [1, 2] [[1]] [[6147]] (fun _ _ _ s => if s = 0 then some [1, 0] else some [0, 0]) = some ([[0], [2147483645]], [[6146], [2147477499]]) := by
  refine ⟨by unfold FitsLevels; decide +kernel, by unfold FitsLevels; decide +kernel, by unfold Rows Words; decide +kernel, by unfold Rows Words; decide +kernel, by decide +kernel, by decide +kernel, by decide +kernel, ?_, by decide +kernel⟩
  intro fs gs ef eg st s k h
  rw [ef, eg]
  dsimp only at h
  split at h
  · obtain rfl := (Option.some.inj h).symm
    decide +kernel
  · obtain rfl := (Option.some.inj h).symm
    decide +kernel

end Verif.CRef.Kg
