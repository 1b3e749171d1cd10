import Verif.CRef.ReduceNtt

/-! # C117: the reduction of the intermediate levels keeps the NTRU equation -/

namespace Verif.CRef.Kg

open Verif.NTT Verif.Ring Verif.Falcon

/-- Coefficient `i` of `f G - g F` in `Z[x]/(x^n+1)`. -/
def det (n : ℕ) (f g F G : List (List ℕ)) (i : ℕ) : ℤ := negCoeff n (f.map sbig) (G.map sbig) i - negCoeff n (g.map sbig) (F.map sbig) i

/-- The value of a polynomial at the root of `x^n+1` of the residues modulo `M`. -/
noncomputable def at_ (M n : ℕ) (F : List (List ℕ)) : AdjoinRoot (Polynomial.X ^ n + 1 : Polynomial (ZMod M)) := ev (rt (ZMod M) n) (zp M (F.map sbig))

theorem ev_cast (M n : ℕ) (a b : List ℤ) (la : a.length = n) (lb : b.length = n) : ev (rt (ZMod M) n) (zp M (negMul n a b)) =
    ev (rt (ZMod M) n) (zp M a) * ev (rt (ZMod M) n) (zp M b) := by
  rw [← ev_negMul _ n (rt_pow n) _ _ (by simpa [zp] using la) (by simpa [zp] using lb)]
  congr 1
  unfold negMul zp
  rw [List.map_map]
  apply List.map_congr_left
  intro i _
  show ((negCoeff n a b i : ℤ) : ZMod M) = _
  have g : ∀ (l : List ℤ) (i : ℕ), (List.map (fun z : ℤ => (z : ZMod M)) l).getD i 0 = ((l.getD i 0 : ℤ) : ZMod M) := by
    intro l i
    rw [List.getD_eq_getElem?_getD, List.getD_eq_getElem?_getD, List.getElem?_map]
    cases l[i]? <;> simp
  unfold negCoeff
  push_cast
  refine Finset.sum_congr rfl fun x _ => Finset.sum_congr rfl fun y _ => ?_
  rw [g, g]
  try (split <;> [skip; split] <;> push_cast <;> rfl)

theorem sub_list (M n : ℕ) (a b : List ℤ) (c : ℕ → ℤ) (s : ℤ) (la : a.length = n) (lb : b.length = n) (h : ∀ i < n, b[i]! ≡ a[i]! - c i * s [ZMOD M]) :
    ev (rt (ZMod M) n) (zp M b) = ev (rt (ZMod M) n) (zp M a) - ev (rt (ZMod M) n) (zp M ((List.range n).map c)) * (s : AdjoinRoot (Polynomial.X ^ n + 1 : Polynomial (ZMod M))) := by
  unfold ev
  have z0 : ∀ l : List ℤ, (zp M l).length = l.length := fun l => List.length_map _
  have zi : ∀ (l : List ℤ) (i : ℕ), i < l.length → at' (zp M l) i = ((l[i]! : ℤ) : ZMod M) := by
    intro l i hi
    rw [at'_lt _ _ (by rw [z0]; exact hi), getElem!_pos l i hi]
    simp [zp]
  simp only [z0, List.length_map, la, lb, List.length_range]
  rw [Finset.sum_mul, ← Finset.sum_sub_distrib]
  refine Finset.sum_congr rfl fun i hi => ?_
  have hi := Finset.mem_range.1 hi
  have e3 : (((List.range n).map c)[i]! : ℤ) = c i := by rw [getElem!_pos _ i (by simpa using hi)]; simp
  rw [zi b i (by omega), zi a i (by omega), zi _ i (by simpa using hi), e3, (ZMod.intCast_eq_intCast_iff _ _ M).2 (h i hi)]
  push_cast
  simp only [map_sub, map_mul, map_intCast]
  ring

theorem sbig_take (x : List ℕ) (m l : ℕ) (hm : m ≤ l) (hl : l ≤ x.length) : sbig (x.take l) ≡ sbig x [ZMOD 2147483648 ^ m] := by
  have h1 := sbig_mod (x.take l)
  have h2 := sbig_mod x
  rw [List.length_take, Nat.min_eq_left hl] at h1
  have d1 : (2147483648 : ℤ) ^ m ∣ 2147483648 ^ l := pow_dvd_pow _ hm
  have d2 : (2147483648 : ℤ) ^ m ∣ 2147483648 ^ x.length := pow_dvd_pow _ (by omega)
  refine (h1.of_dvd d1).trans (Int.ModEq.trans ?_ (h2.of_dvd d2).symm)
  have e : (big x : ℤ) = big (x.take l) + 2147483648 ^ l * big (x.drop l) := by
    have := big_append (x.take l) (x.drop l)
    rw [List.take_append_drop, List.length_take, Nat.min_eq_left hl] at this
    rw [this]; push_cast; ring
  rw [e, Int.modEq_iff_dvd]
  obtain ⟨t, ht⟩ := d1
  exact ⟨t * big (x.drop l), by rw [ht]; ring⟩

/-- Sign extension keeps the value. -/
theorem fitLen_ext (slen : ℕ) (x : List ℕ) (hx : Words x) (h0 : x.length ≠ 0) (h : x.length < slen) : (fitLen slen x).length = slen ∧ Words (fitLen slen x) ∧ sbig (fitLen slen x) = sbig x := by
  obtain ⟨neg, s1, s2, s3⟩ := signWord_spec x hx h0
  unfold fitLen
  rw [if_pos h]
  have wr : Words (List.replicate (slen - x.length) (signWord x)) := fun w hw => by rw [List.eq_of_mem_replicate hw]; norm_num; exact s2
  have lx : (x ++ List.replicate (slen - x.length) (signWord x)).length = slen := by rw [List.length_append, List.length_replicate]; omega
  have wx := words_append hx wr
  have br : ∀ j : ℕ, (big (List.replicate j (signWord x)) : ℤ) = neg * (2147483648 ^ j - 1) := by
    intro j
    induction j with
    | zero => simp [big]
    | succ j ih => rw [List.replicate_succ, big_cons]; push_cast; rw [ih, s1, pow_succ]; ring
  obtain ⟨r1, r2⟩ := sbig_range x hx
  have hp : (2147483648 : ℤ) ^ x.length ≤ 2147483648 ^ slen := pow_le_pow_right₀ (by norm_num) h.le
  refine ⟨lx, wx, sbig_unique _ wx _ (by rw [lx]; linarith) (by rw [lx]; linarith) ?_⟩
  rw [lx, big_append]
  push_cast
  rw [br, ← s3]
  unfold rest
  have e : (2147483648 : ℤ) ^ slen = 2147483648 ^ x.length * 2147483648 ^ (slen - x.length) := by rw [← pow_add]; congr 1; omega
  rw [e, Int.modEq_iff_dvd]
  exact ⟨-neg, by ring⟩

/-- What the theorem needs to know about the multipliers: length, range and, at the levels that use the transforms, products that fit `slen + 1` primes. -/
def GoodMult (depth logn : ℕ) (f g : List (List ℕ)) (mult : ReduceSt → ℕ → Option (List ℤ)) : Prop :=
  ∀ st s k, mult st s = some k → k.length = 2 ^ logn ∧ (∀ x ∈ k, |x| < 2 ^ 31) ∧ (depth ≤ 4 →
    (∀ x ∈ k, ∀ u ≤ maxBlSmall[depth]!, |x| < ((primeList[u]! : ℕ) : ℤ)) ∧
    ∀ i < 2 ^ logn, 2 * |negCoeff (2 ^ logn) k (f.map sbig) i| < (((primeList.take (maxBlSmall[depth]! + 1)).prod : ℕ) : ℤ) ∧
      2 * |negCoeff (2 ^ logn) k (g.map sbig) i| < (((primeList.take (maxBlSmall[depth]! + 1)).prod : ℕ) : ℤ))

theorem redSub_mod (depth slen logn : ℕ) (hl : logn ≤ 10) (len : ℕ) (h0 : slen ≠ 0) (h5 : slen + 1 ≤ 521) (F f : List (List ℕ)) (hF : Rows (2 ^ logn) len F) (hf : Rows (2 ^ logn) slen f) (scale : ℕ)
    (k : List ℤ) (hkl : k.length = 2 ^ logn) (hk : ∀ x ∈ k, |x| < 2 ^ 31) (hd : depth ≤ 4 → (∀ x ∈ k, ∀ u ≤ slen, |x| < ((primeList[u]! : ℕ) : ℤ)) ∧
      ∀ i < 2 ^ logn, 2 * |negCoeff (2 ^ logn) k (f.map sbig) i| < (((primeList.take (slen + 1)).prod : ℕ) : ℤ)) :
    Rows (2 ^ logn) len (redSub depth slen logn f F k scale) ∧ ∀ i < 2 ^ logn,
      (big (redSub depth slen logn f F k scale)[i]! : ℤ) ≡ big F[i]! - negCoeff (2 ^ logn) k (f.map sbig) i * 2 ^ scale [ZMOD 2147483648 ^ len] := by
  have hs : scale % 31 ≤ 30 := by omega
  have e : scale = 31 * (scale / 31) + scale % 31 := by omega
  unfold redSub
  split
  · next c =>
    have := subNtt_mod logn hl len slen h5 F f hF hf (scale / 31) (scale % 31) hs k hkl (hd c).1 (hd c).2
    rwa [← e] at this
  · have := polySubScaled_mod logn len slen h0 F f hF hf (scale / 31) (scale % 31) hs k hkl fun x hx => by
      have := abs_lt.1 (hk x hx)
      norm_num at this
      exact this
    rwa [← e] at this

theorem redLen_le (depth s : ℕ) (lb : ℕ × ℕ) : (redLen depth s lb).1 ≤ lb.1 := by
  unfold redLen
  dsimp only
  split
  · dsimp only
    split <;> omega
  · exact le_refl _

theorem rows_take (n len l : ℕ) (hl : l ≤ len) (F : List (List ℕ)) (hF : Rows n len F) : Rows n l (F.map fun x => x.take l) ∧ ∀ i < n, (F.map fun x => x.take l)[i]! = F[i]!.take l := by
  have e : ∀ i < n, (F.map fun x => x.take l)[i]! = F[i]!.take l := by
    intro i hi
    rw [getElem!_pos _ i (by rw [List.length_map, hF.1]; exact hi), List.getElem_map, getElem!_pos F i (by rw [hF.1]; exact hi)]
  refine ⟨⟨by rw [List.length_map, hF.1], fun i hi => ?_⟩, e⟩
  rw [e i hi, List.length_take, (hF.2 i hi).1]
  exact ⟨Nat.min_eq_left hl, (hF.2 i hi).2.take l⟩

theorem map_get (n len : ℕ) (F : List (List ℕ)) (hF : Rows n len F) (i : ℕ) (hi : i < n) : (F.map sbig)[i]! = sbig F[i]! := by
  rw [getElem!_pos _ i (by rw [List.length_map, hF.1]; exact hi), List.getElem_map, getElem!_pos F i (by rw [hF.1]; exact hi)]

/-- One subtraction and the shortening of the rows, seen at the root modulo a power of `2^31` that the rows still hold. -/
theorem sub_at (depth slen logn : ℕ) (hl : logn ≤ 10) (len l m : ℕ) (hm : m ≤ l) (hll : l ≤ len) (h0 : slen ≠ 0) (h5 : slen + 1 ≤ 521) (F f : List (List ℕ)) (hF : Rows (2 ^ logn) len F) (hf : Rows (2 ^ logn) slen f) (scale : ℕ)
    (k : List ℤ) (hkl : k.length = 2 ^ logn) (hk : ∀ x ∈ k, |x| < 2 ^ 31) (hd : depth ≤ 4 → (∀ x ∈ k, ∀ u ≤ slen, |x| < ((primeList[u]! : ℕ) : ℤ)) ∧
      ∀ i < 2 ^ logn, 2 * |negCoeff (2 ^ logn) k (f.map sbig) i| < (((primeList.take (slen + 1)).prod : ℕ) : ℤ)) :
    Rows (2 ^ logn) l ((redSub depth slen logn f F k scale).map fun x => x.take l) ∧
      at_ (2147483648 ^ m) (2 ^ logn) ((redSub depth slen logn f F k scale).map fun x => x.take l) =
        at_ (2147483648 ^ m) (2 ^ logn) F - ev (rt (ZMod (2147483648 ^ m)) (2 ^ logn)) (zp (2147483648 ^ m) k) * at_ (2147483648 ^ m) (2 ^ logn) f * ((2 ^ scale : ℤ) : AdjoinRoot (Polynomial.X ^ (2 ^ logn) + 1 : Polynomial (ZMod (2147483648 ^ m)))) := by
  obtain ⟨r, c⟩ := redSub_mod depth slen logn hl len h0 h5 F f hF hf scale k hkl hk hd
  obtain ⟨t, te⟩ := rows_take _ len l hll _ r
  refine ⟨t, ?_⟩
  unfold at_
  rw [← ev_cast _ _ k (f.map sbig) hkl (by rw [List.length_map, hf.1])]
  refine sub_list _ _ (F.map sbig) _ (negCoeff (2 ^ logn) k (f.map sbig)) (2 ^ scale) (by rw [List.length_map, hF.1]) (by rw [List.length_map, t.1]) fun i hi => ?_
  rw [map_get _ _ _ t i hi, map_get _ _ _ hF i hi, te i hi]
  obtain ⟨ri, _⟩ := r.2 i hi
  have d : (2147483648 : ℤ) ^ m ∣ 2147483648 ^ len := pow_dvd_pow _ (by omega)
  have s1 := sbig_take (redSub depth slen logn f F k scale)[i]! m l hm (by omega)
  have s2 := sbig_mod (redSub depth slen logn f F k scale)[i]!
  have s3 := sbig_mod F[i]!
  rw [ri] at s2
  rw [(hF.2 i hi).1] at s3
  push_cast
  exact s1.trans ((s2.trans ((c i hi).trans (Int.ModEq.sub_right _ s3.symm))).of_dvd d)

/-- The value of `f G - g F` at the root. -/
noncomputable def detAt (M n : ℕ) (f g F G : List (List ℕ)) : AdjoinRoot (Polynomial.X ^ n + 1 : Polynomial (ZMod M)) := at_ M n f * at_ M n G - at_ M n g * at_ M n F

theorem loop_at (depth logn : ℕ) (hl : logn ≤ 10) (hd : depth ≤ 9) (f g : List (List ℕ)) (hf : Rows (2 ^ logn) maxBlSmall[depth]! f) (hg : Rows (2 ^ logn) maxBlSmall[depth]! g) (mult : ReduceSt → ℕ → Option (List ℤ))
    (hm : GoodMult depth logn f g mult) : ∀ (l : List ℕ) (st st' : ReduceSt), Rows (2 ^ logn) st.len st.F → Rows (2 ^ logn) st.len st.G → l.foldlM (reduceStep depth logn f g mult) st = some st' →
      (st'.len, st'.bl) = l.foldl (fun lb s => redLen depth s lb) (st.len, st.bl) ∧ st'.len ≤ st.len ∧ Rows (2 ^ logn) st'.len st'.F ∧ Rows (2 ^ logn) st'.len st'.G ∧
      ∀ m ≤ st'.len, detAt (2147483648 ^ m) (2 ^ logn) f g st'.F st'.G = detAt (2147483648 ^ m) (2 ^ logn) f g st.F st.G
  | [], st, st', hF, hG, h => by
    obtain rfl : st = st' := by simpa using h
    exact ⟨rfl, le_refl _, hF, hG, fun _ _ => rfl⟩
  | s :: l, st, st', hF, hG, h => by
    rw [List.foldlM_cons] at h
    unfold reduceStep at h
    have b := (by decide : ∀ d < 10, maxBlSmall[d]! ≠ 0 ∧ maxBlSmall[d]! + 1 ≤ 521) depth (by omega)
    cases hk : mult st s with
    | none => rw [hk] at h; simp at h
    | some k =>
      rw [hk] at h
      dsimp only at h
      obtain ⟨k1, k2, k3⟩ := hm st s k hk
      have le := redLen_le depth s (st.len, st.bl)
      have sF := fun m hmm => sub_at depth maxBlSmall[depth]! logn hl st.len (redLen depth s (st.len, st.bl)).1 m hmm le b.1 b.2 st.F f hF hf s k k1 k2 fun c => ⟨(k3 c).1, fun i hi => ((k3 c).2 i hi).1⟩
      have sG := fun m hmm => sub_at depth maxBlSmall[depth]! logn hl st.len (redLen depth s (st.len, st.bl)).1 m hmm le b.1 b.2 st.G g hG hg s k k1 k2 fun c => ⟨(k3 c).1, fun i hi => ((k3 c).2 i hi).2⟩
      obtain ⟨i1, i2, i3, i4, i5⟩ := loop_at depth logn hl hd f g hf hg mult hm l ⟨_, _, _, _⟩ st' (sF 0 (Nat.zero_le _)).1 (sG 0 (Nat.zero_le _)).1 h
      refine ⟨i1, le_trans i2 le, i3, i4, fun m hmm => ?_⟩
      rw [i5 m hmm]
      unfold detAt
      dsimp only
      rw [(sF m (le_trans hmm i2)).2, (sG m (le_trans hmm i2)).2]
      ring

theorem det_at (M n : ℕ) (f g F G : List (List ℕ)) (lf : f.length = n) (lg : g.length = n) (lF : F.length = n) (lG : G.length = n) :
    detAt M n f g F G = ev (rt (ZMod M) n) (zp M ((List.range n).map (det n f g F G))) := by
  have h := sub_list M n (negMul n (f.map sbig) (G.map sbig)) ((List.range n).map (det n f g F G)) (negCoeff n (g.map sbig) (F.map sbig)) 1 (length_negMul _ _ _) (by simp) fun i hi => by
    rw [getElem!_pos _ i (by simpa using hi), getElem!_pos _ i (by rw [length_negMul]; exact hi)]
    simp only [List.getElem_map, List.getElem_range, negMul, det]
    rw [mul_one]
  rw [h]
  have e : (List.range n).map (negCoeff n (g.map sbig) (F.map sbig)) = negMul n (g.map sbig) (F.map sbig) := rfl
  rw [e, ev_cast _ _ _ _ (by simpa using lf) (by simpa using lG), ev_cast _ _ _ _ (by simpa using lg) (by simpa using lF)]
  unfold detAt at_
  simp

theorem det_of_at (M n : ℕ) (hn : 0 < n) (f g F G F' G' : List (List ℕ)) (lf : f.length = n) (lg : g.length = n) (lF : F.length = n) (lG : G.length = n) (lF' : F'.length = n) (lG' : G'.length = n)
    (h : detAt M n f g F' G' = detAt M n f g F G) (i : ℕ) (hi : i < n) : det n f g F' G' i ≡ det n f g F G i [ZMOD M] := by
  rw [det_at M n f g F' G' lf lg lF' lG', det_at M n f g F G lf lg lF lG] at h
  have e := list_eq_of_ev n hn _ _ (by simp [zp]) (by simp [zp]) h
  have e2 := congrArg (fun l : List (ZMod M) => l[i]?) e
  simp only [zp, List.getElem?_map, List.getElem?_range hi, Option.map_some, Option.some.injEq] at e2
  exact (ZMod.intCast_eq_intCast_iff _ _ M).1 e2

/-- The number of words that the returned coefficients really use: all, except at depth 9, where `FGlen` ends one word below. -/
def usedWords (depth : ℕ) : ℕ := if depth = 9 then 105 else maxBlSmall[depth]!

theorem used_words : ∀ d < 10, min ((scales d).foldl (fun lb s => redLen d s lb) (maxBlLarge[d]!, 31 * maxBlLarge[d]!)).1 maxBlSmall[d]! = usedWords d ∧ usedWords d ≠ 0 := by decide +kernel

/-- The last step: each coefficient keeps its value modulo the words in use, and fits them. -/
theorem fitLen_mod (slen m : ℕ) (x : List ℕ) (hx : Words x) (hm : min x.length slen = m) (h0 : m ≠ 0) : (fitLen slen x).length = slen ∧ Words (fitLen slen x) ∧
    sbig (fitLen slen x) ≡ sbig x [ZMOD 2147483648 ^ m] ∧ -2147483648 ^ m ≤ 2 * sbig (fitLen slen x) ∧ 2 * sbig (fitLen slen x) < 2147483648 ^ m := by
  rcases Nat.lt_or_ge x.length slen with c | c
  · obtain ⟨a1, a2, a3⟩ := fitLen_ext slen x hx (by omega) c
    obtain rfl : x.length = m := by omega
    rw [a3]
    exact ⟨a1, a2, rfl, sbig_range x hx⟩
  · obtain rfl : slen = m := by omega
    unfold fitLen
    rw [if_neg (by omega)]
    have l : (x.take slen).length = slen := by rw [List.length_take]; omega
    have r := sbig_range (x.take slen) (hx.take _)
    rw [l] at r
    exact ⟨l, hx.take _, sbig_take x slen slen (le_refl _) c, r⟩

theorem fit_rows (n len slen m : ℕ) (F : List (List ℕ)) (hF : Rows n len F) (hm : min len slen = m) (h0 : m ≠ 0) : Rows n slen (F.map (fitLen slen)) ∧ at_ (2147483648 ^ m) n (F.map (fitLen slen)) = at_ (2147483648 ^ m) n F ∧
    ∀ i < n, -2147483648 ^ m ≤ 2 * sbig (F.map (fitLen slen))[i]! ∧ 2 * sbig (F.map (fitLen slen))[i]! < 2147483648 ^ m := by
  have e : ∀ i < n, (F.map (fitLen slen))[i]! = fitLen slen F[i]! := by
    intro i hi
    rw [getElem!_pos _ i (by rw [List.length_map, hF.1]; exact hi), List.getElem_map, getElem!_pos F i (by rw [hF.1]; exact hi)]
  have q : ∀ i < n, _ := fun i hi => fitLen_mod slen m F[i]! (hF.2 i hi).2 (by rw [(hF.2 i hi).1]; exact hm) h0
  have rows : Rows n slen (F.map (fitLen slen)) := ⟨by rw [List.length_map, hF.1], fun i hi => by rw [e i hi]; exact ⟨(q i hi).1, (q i hi).2.1⟩⟩
  refine ⟨rows, ?_, fun i hi => by rw [e i hi]; exact (q i hi).2.2.2⟩
  unfold at_
  have s := sub_list (2147483648 ^ m) n (F.map sbig) ((F.map (fitLen slen)).map sbig) (fun _ => 0) 0 (by rw [List.length_map, hF.1]) (by rw [List.length_map, rows.1]) fun i hi => by
    rw [map_get _ _ _ rows i hi, map_get _ _ _ hF i hi, e i hi, mul_zero, sub_zero]
    push_cast
    exact (q i hi).2.2.1
  rw [s]
  simp

/-- **C117**: whatever multipliers the floating-point part chooses, the reduction of an intermediate level keeps `f G - g F` in `Z[x]/(x^n+1)`, modulo `2^31` to the number of words of the result, and every returned coefficient fits
these words. -/
theorem C117_reduce (depth logn : ℕ) (hl : logn ≤ 10) (hd : depth ≤ 9) (f g F G : List (List ℕ)) (hf : Rows (2 ^ logn) maxBlSmall[depth]! f) (hg : Rows (2 ^ logn) maxBlSmall[depth]! g) (hF : Rows (2 ^ logn) maxBlLarge[depth]! F)
    (hG : Rows (2 ^ logn) maxBlLarge[depth]! G) (mult : ReduceSt → ℕ → Option (List ℤ)) (hm : GoodMult depth logn f g mult) (F' G' : List (List ℕ)) (h : reduceFG depth logn f g F G mult = some (F', G')) :
    Rows (2 ^ logn) maxBlSmall[depth]! F' ∧ Rows (2 ^ logn) maxBlSmall[depth]! G' ∧
    (∀ i < 2 ^ logn, det (2 ^ logn) f g F' G' i ≡ det (2 ^ logn) f g F G i [ZMOD 2 ^ (31 * usedWords depth)]) ∧
    ∀ i < 2 ^ logn, (-(2 : ℤ) ^ (31 * usedWords depth) ≤ 2 * sbig F'[i]! ∧ 2 * sbig F'[i]! < (2 : ℤ) ^ (31 * usedWords depth)) ∧
      -(2 : ℤ) ^ (31 * usedWords depth) ≤ 2 * sbig G'[i]! ∧ 2 * sbig G'[i]! < (2 : ℤ) ^ (31 * usedWords depth) := by
  have hp : (2 : ℤ) ^ (31 * usedWords depth) = 2147483648 ^ usedWords depth := by exact_mod_cast pow31 (usedWords depth)
  rw [hp]
  obtain ⟨u1, u2⟩ := used_words depth (by omega)
  unfold reduceFG at h
  cases hk : (scales depth).foldlM (reduceStep depth logn f g mult) ⟨F, G, maxBlLarge[depth]!, 31 * maxBlLarge[depth]!⟩ with
  | none => rw [hk] at h; simp at h
  | some st =>
    rw [hk] at h
    simp only [Option.some.injEq, Prod.mk.injEq] at h
    obtain ⟨rfl, rfl⟩ := h
    obtain ⟨i1, i2, i3, i4, i5⟩ := loop_at depth logn hl hd f g hf hg mult hm _ _ st hF hG hk
    dsimp only at i1 i5
    have i1 := congrArg Prod.fst i1
    dsimp only at i1
    rw [← i1] at u1
    obtain ⟨a1, a2, a3⟩ := fit_rows _ _ _ _ st.F i3 u1 u2
    obtain ⟨b1, b2, b3⟩ := fit_rows _ _ _ _ st.G i4 u1 u2
    refine ⟨a1, b1, fun i hi => ?_, fun i hi => ⟨a3 i hi, b3 i hi⟩⟩
    have := det_of_at (2147483648 ^ usedWords depth) (2 ^ logn) (Nat.two_pow_pos _) f g F G _ _ hf.1 hg.1 hF.1 hG.1 a1.1 b1.1 (by
      rw [← i5 (usedWords depth) (by omega)]
      unfold detAt
      rw [a2, b2]) i hi
    push_cast at this
    exact this

/-- If both sides fit the words of the result, the equation is kept exactly: a solution of `f G - g F = q` stays one. -/
theorem C117_exact (depth logn : ℕ) (hl : logn ≤ 10) (hd : depth ≤ 9) (f g F G : List (List ℕ)) (hf : Rows (2 ^ logn) maxBlSmall[depth]! f) (hg : Rows (2 ^ logn) maxBlSmall[depth]! g) (hF : Rows (2 ^ logn) maxBlLarge[depth]! F)
    (hG : Rows (2 ^ logn) maxBlLarge[depth]! G) (mult : ReduceSt → ℕ → Option (List ℤ)) (hm : GoodMult depth logn f g mult) (F' G' : List (List ℕ)) (h : reduceFG depth logn f g F G mult = some (F', G')) (i : ℕ) (hi : i < 2 ^ logn)
    (b : 2 * |det (2 ^ logn) f g F G i| < 2 ^ (31 * usedWords depth)) (b' : 2 * |det (2 ^ logn) f g F' G' i| < 2 ^ (31 * usedWords depth)) : det (2 ^ logn) f g F' G' i = det (2 ^ logn) f g F G i := by
  have c := (C117_reduce depth logn hl hd f g F G hf hg hF hG mult hm F' G' h).2.2.1 i hi
  generalize (2 : ℤ) ^ (31 * usedWords depth) = B at *
  have d : B ∣ det (2 ^ logn) f g F' G' i - det (2 ^ logn) f g F G i := (Int.modEq_iff_dvd.1 c.symm)
  have t := abs_sub (det (2 ^ logn) f g F' G' i) (det (2 ^ logn) f g F G i)
  have z := Int.eq_zero_of_abs_lt_dvd d (by linarith)
  linarith

/-! A concrete case at depth 5 with two coefficients: twenty rounds with the multiplier `scale_k - 7 x`. -/

def exf : List (List ℕ) := [[3, 0, 0, 0, 0, 0, 0], [1, 0, 0, 0, 0, 0, 0]]
def exg : List (List ℕ) := [[2147483646, 2147483647, 2147483647, 2147483647, 2147483647, 2147483647, 2147483647], [5, 0, 0, 0, 0, 0, 0]]
def exF : List (List ℕ) := [1 :: List.replicate 20 7, 5 :: List.replicate 20 2147483000]
def exG : List (List ℕ) := [8 :: List.replicate 20 3, 9 :: List.replicate 20 1]
def exMult : ReduceSt → ℕ → Option (List ℤ) := fun _ s => if s < 1000 then some [(s : ℤ), -7] else none

example : Rows (2 ^ 1) maxBlSmall[5]! exf ∧ Rows (2 ^ 1) maxBlSmall[5]! exg ∧ Rows (2 ^ 1) maxBlLarge[5]! exF ∧ Rows (2 ^ 1) maxBlLarge[5]! exG ∧ GoodMult 5 1 exf exg exMult ∧
    (reduceFG 5 1 exf exg exF exG exMult).isSome = true ∧ usedWords 5 = 7 := by
  refine ⟨by unfold Rows Words; decide, by unfold Rows Words; decide, by unfold Rows Words; decide, by unfold Rows Words; decide, ?_, by decide +kernel, by decide⟩
  intro st s k h
  unfold exMult at h
  split at h
  · obtain rfl := (Option.some.inj h).symm
    refine ⟨rfl, fun x hx => ?_, fun c => absurd c (by decide)⟩
    simp only [List.mem_cons, List.not_mem_nil, or_false] at hx
    rcases hx with rfl | rfl
    · rw [abs_of_nonneg (by omega)]; omega
    · norm_num
  · simp at h

end Verif.CRef.Kg
