import Verif.CRef.KgArith

/-! # C90: the transforms modulo a small prime -/

namespace Verif.CRef.Kg

open Verif.NTT Verif.Ring
open Verif.Packing (W getElem!_set)

variable {p p0i : ℕ}

/-- All words are canonical. -/
def CanonP (p : ℕ) (a : List ℕ) : Prop := ∀ j : ℕ, a[j]! < p

theorem canonP_set (a : List ℕ) (h : CanonP p a) (i v : ℕ) (hv : v < p) : CanonP p (a.set i v) := by
  intro j
  rw [getElem!_set]
  split
  · exact hv
  · exact h j

theorem canonP_of (n : ℕ) (hp : 0 < p) (a : List ℕ) (ha : a.length = n) (h : ∀ x < n, a[x]! < p) : CanonP p a := by
  intro j
  by_cases hj : j < n
  · exact h j hj
  · rw [List.getElem!_eq_getElem?_getD, List.getElem?_eq_none (by omega)]
    exact hp

theorem addmod_p (hp : 0 < p) (a b : ℕ) : addmod a b p = (a + b) % p := by unfold addmod; rw [if_neg (by omega)]
theorem mulmod_p (hp : 0 < p) (a b : ℕ) : mulmod a b p = a * b % p := by unfold mulmod; rw [if_neg (by omega)]

/-- The factor a table word stands for. -/
def psi (p : ℕ) (gm : List ℕ) (j : ℕ) : ℕ := ((gm[j]! : ZMod p) * (Rf p)⁻¹).val

theorem mm_table (M : Modulus p p0i) (x s : ℕ) (hx : x < p) (hs : s < p) : modpMontymul x s p p0i = x * ((s : ZMod p) * (Rf p)⁻¹).val % p := by
  have : Fact p.Prime := ⟨M.prime⟩
  have h := cast_mm M x s hx hs
  have hlt := montymul_lt M x s hx hs
  have e : ((modpMontymul x s p p0i : ℕ) : ZMod p) = ((x * ((s : ZMod p) * (Rf p)⁻¹).val : ℕ) : ZMod p) := by
    rw [Nat.cast_mul, ZMod.natCast_zmod_val]
    apply mul_right_cancel₀ (Rf_ne M)
    rw [h, mul_assoc, mul_assoc, inv_mul_cancel₀ (Rf_ne M), mul_one]
  rw [ZMod.natCast_eq_natCast_iff', Nat.mod_eq_of_lt hlt] at e
  exact e

theorem p_pos (M : Modulus p p0i) : 0 < p := by have := M.lo; omega
theorem p_W (M : Modulus p p0i) : p < W := by have := M.hi; unfold W; omega

theorem fwButterfly_eq (M : Modulus p p0i) (s t : ℕ) (ht : 0 < t) (hs : s < p) (a : List ℕ) (h : CanonP p a) (j : ℕ) :
    fwButterfly p p0i s t a j = fwBfly p ((s : ZMod p) * (Rf p)⁻¹).val t a j ∧ CanonP p (fwBfly p ((s : ZMod p) * (Rf p)⁻¹).val t a j) := by
  have q0 := p_pos M
  obtain ⟨S, hS⟩ : ∃ S, ((s : ZMod p) * (Rf p)⁻¹).val = S := ⟨_, rfl⟩
  have hm : modpMontymul a[j + t]! s p p0i = mulmod a[j + t]! S p := by
    rw [mm_table M _ s (h _) hs, mulmod_p q0, hS]
  rw [hS]
  have hv : mulmod a[j + t]! S p < p := mulmod_lt q0 _ _
  have hw : subw p (mulmod a[j + t]! S p) = p - mulmod a[j + t]! S p := subw_eq p _ (p_W M) hv.le
  have hj : j ≠ j + t := by omega
  unfold fwButterfly fwBfly
  dsimp only
  rw [hm, hw]
  generalize mulmod a[j + t]! S p = v at hv
  rw [modpAdd_eq M.hi _ _ (h _) hv, modpSub_eq M.hi _ _ (h _) hv, addmod_p q0, addmod_p q0]
  exact ⟨set_swap _ _ _ _ _ hj, canonP_set _ (canonP_set _ h _ _ (Nat.mod_lt _ q0)) _ _ (Nat.mod_lt _ q0)⟩

theorem invButterfly_eq (M : Modulus p p0i) (s t : ℕ) (ht : 0 < t) (hs : s < p) (a : List ℕ) (h : CanonP p a) (j : ℕ) :
    invButterfly p p0i s t a j = invBfly p ((s : ZMod p) * (Rf p)⁻¹).val t a j ∧ CanonP p (invBfly p ((s : ZMod p) * (Rf p)⁻¹).val t a j) := by
  have q0 := p_pos M
  have hw : subw p a[j + t]! = p - a[j + t]! := subw_eq p _ (p_W M) (h _).le
  have hj : j ≠ j + t := by omega
  unfold invButterfly invBfly
  dsimp only
  rw [hw]
  rw [modpAdd_eq M.hi _ _ (h _) (h _), modpSub_eq M.hi _ _ (h _) (h _), mm_table M _ s (Nat.mod_lt _ q0) hs, addmod_p q0, addmod_p q0, mulmod_p q0]
  exact ⟨set_swap _ _ _ _ _ hj, canonP_set _ (canonP_set _ h _ _ (Nat.mod_lt _ q0)) _ _ (Nat.mod_lt _ q0)⟩

theorem fwInner_eq (M : Modulus p p0i) (s t j1 : ℕ) (hs : s < p) (a : List ℕ) (h : CanonP p a) :
    fwInner p p0i s t j1 a = fwGroup p ((s : ZMod p) * (Rf p)⁻¹).val t j1 a ∧ CanonP p (fwGroup p ((s : ZMod p) * (Rf p)⁻¹).val t j1 a) := by
  rcases Nat.eq_zero_or_pos t with rfl | ht
  · unfold fwInner fwGroup; rw [List.range_zero, List.foldl_nil, List.foldl_nil]; exact ⟨rfl, h⟩
  · unfold fwInner fwGroup
    exact foldl_inv (fun a k => fwButterfly p p0i s t a (j1 + k)) (fun a k => fwBfly p _ t a (j1 + k)) (CanonP p) (fun a k ha => fwButterfly_eq M s t ht hs a ha (j1 + k)) (List.range t) a h

theorem invInner_eq (M : Modulus p p0i) (s t j1 : ℕ) (hs : s < p) (a : List ℕ) (h : CanonP p a) :
    invInner p p0i s t j1 a = invGroup p ((s : ZMod p) * (Rf p)⁻¹).val t j1 a ∧ CanonP p (invGroup p ((s : ZMod p) * (Rf p)⁻¹).val t j1 a) := by
  rcases Nat.eq_zero_or_pos t with rfl | ht
  · unfold invInner invGroup; rw [List.range_zero, List.foldl_nil, List.foldl_nil]; exact ⟨rfl, h⟩
  · unfold invInner invGroup
    exact foldl_inv (fun a k => invButterfly p p0i s t a (j1 + k)) (fun a k => invBfly p _ t a (j1 + k)) (CanonP p) (fun a k ha => invButterfly_eq M s t ht hs a ha (j1 + k)) (List.range t) a h

theorem fwMiddle_eq (M : Modulus p p0i) (gm : List ℕ) (hg : CanonP p gm) (m t : ℕ) (a : List ℕ) (h : CanonP p a) :
    fwMiddle p p0i gm m (2 * t) a = fwStage (psi p gm) p m t a ∧ CanonP p (fwStage (psi p gm) p m t a) := by
  unfold fwMiddle fwStage
  have key : ∀ N, (List.range N).foldl (fun (st : ℕ × List ℕ) i => (st.1 + 2 * t, fwInner p p0i gm[m + i]! (2 * t / 2) st.1 st.2)) (0, a) =
      (2 * N * t, (List.range N).foldl (fun a i => fwGroup p (psi p gm (m + i)) t (2 * i * t) a) a) ∧
      CanonP p ((List.range N).foldl (fun a i => fwGroup p (psi p gm (m + i)) t (2 * i * t) a) a) := by
    intro N
    induction N with
    | zero => exact ⟨by simp, h⟩
    | succ N ih =>
      rw [List.range_succ, List.foldl_append, ih.1, List.foldl_append, List.foldl_cons, List.foldl_nil, List.foldl_cons, List.foldl_nil]
      obtain ⟨e1, e2⟩ := fwInner_eq M gm[m + N]! t (2 * N * t) (hg _) _ ih.2
      refine ⟨?_, e2⟩
      dsimp only
      rw [Nat.mul_div_cancel_left t (by decide : 0 < 2), e1]
      unfold psi
      congr 1; ring
  exact ⟨by rw [(key m).1], (key m).2⟩

theorem invMiddle_eq (M : Modulus p p0i) (igm : List ℕ) (hg : CanonP p igm) (hm t : ℕ) (a : List ℕ) (h : CanonP p a) :
    invMiddle p p0i igm hm t a = invStage (psi p igm) p hm t a ∧ CanonP p (invStage (psi p igm) p hm t a) := by
  unfold invMiddle invStage
  have key := foldl_inv (fun (st : ℕ × List ℕ) i => (st.1 + 2 * t, invInner p p0i igm[hm + i]! t st.1 st.2))
    (fun (st : ℕ × List ℕ) i => (st.1 + 2 * t, invGroup p (psi p igm (hm + i)) t st.1 st.2)) (fun st => CanonP p st.2)
    (fun st i hst => by
      obtain ⟨e1, e2⟩ := invInner_eq M igm[hm + i]! t st.1 (hg _) st.2 hst
      exact ⟨by rw [e1]; rfl, e2⟩) (List.range hm) (0, a) h
  exact ⟨by rw [key.1], key.2⟩

theorem fwOuter_eq (M : Modulus p p0i) (gm : List ℕ) (hg : CanonP p gm) (n : ℕ) : ∀ (d fuel m : ℕ) (a : List ℕ), m * 2 ^ d = n → CanonP p a →
    fwOuter p p0i gm n fuel (2 ^ d) m a = fwLoop (psi p gm) p n fuel (2 ^ d) m a ∧ CanonP p (fwLoop (psi p gm) p n fuel (2 ^ d) m a) := by
  intro d fuel
  induction fuel generalizing d with
  | zero => intro m a _ h; exact ⟨rfl, h⟩
  | succ fuel ih =>
    intro m a hn h
    unfold fwOuter fwLoop
    by_cases hm : m < n
    · rw [if_pos hm, if_pos hm]
      cases d with
      | zero => omega
      | succ d =>
        obtain ⟨e1, e2⟩ := fwMiddle_eq M gm hg m (2 ^ d) a h
        rw [show 2 ^ (d + 1) = 2 * 2 ^ d by ring, Nat.mul_div_cancel_left _ (by decide : 0 < 2), e1]
        exact ih d (2 * m) _ (by rw [← hn]; ring) e2
    · rw [if_neg hm, if_neg hm]; exact ⟨rfl, h⟩

theorem invOuter_eq (M : Modulus p p0i) (igm : List ℕ) (hg : CanonP p igm) : ∀ (fuel t m : ℕ) (a : List ℕ), CanonP p a →
    invOuter p p0i igm fuel t m a = invLoop (psi p igm) p fuel t m a ∧ CanonP p (invLoop (psi p igm) p fuel t m a) := by
  intro fuel
  induction fuel with
  | zero => intro t m a h; exact ⟨rfl, h⟩
  | succ fuel ih =>
    intro t m a h
    unfold invOuter invLoop
    by_cases hm : m > 1
    · rw [if_pos hm, if_pos hm]
      obtain ⟨e1, e2⟩ := invMiddle_eq M igm hg (m / 2) t a h
      rw [e1]
      exact ih _ _ _ e2
    · rw [if_neg hm, if_neg hm]; exact ⟨rfl, h⟩

/-! ## The tables -/

theorem rev10_length : rev10.length = 1024 := by decide +kernel
theorem rev10_all : rev10.all (· < 1024) = true := by decide +kernel
/-- The table is the reversal of ten bits: each entry from that of half its index. -/
theorem rev10_double : (rev10.map fun x => 2 * x % 1024) = (rev10.take 512).flatMap fun x => [x, x] := by decide +kernel
theorem rev10_half : (rev10.map fun x => x / 512) = (List.range 1024).map fun j => j % 2 := by decide +kernel
theorem rev10_inv : (rev10.map fun x => rev10[x]!) = List.range 1024 := by decide +kernel

theorem rev10_sizes : ((List.range 11).all fun k => (List.range (2 ^ k)).all fun j => rev10[j]! % 2 ^ (10 - k) == 0 && decide (rev10[j <<< (10 - k)]! < 2 ^ k)) = true := by decide +kernel

theorem rev_lt (j : ℕ) (hj : j < 1024) : rev10[j]! < 1024 := by
  rw [getElem!_pos rev10 j (by rw [rev10_length]; exact hj)]
  exact of_decide_eq_true (List.all_eq_true.1 rev10_all _ (List.getElem_mem _))

theorem rev_rev (j : ℕ) (hj : j < 1024) : rev10[rev10[j]!]! = j := by
  have e := congrArg (fun l => l[j]?) rev10_inv
  rw [List.getElem?_map, List.getElem?_eq_getElem (by rw [rev10_length]; exact hj), List.getElem?_range hj] at e
  rw [getElem!_pos rev10 j (by rw [rev10_length]; exact hj)]
  exact Option.some.inj e

theorem rev_top (j : ℕ) (hj : j < 1024) : rev10[j]! / 512 = j % 2 := by
  have e := congrArg (fun l => l[j]?) rev10_half
  rw [List.getElem?_map, List.getElem?_eq_getElem (by rw [rev10_length]; exact hj), List.getElem?_map, List.getElem?_range hj] at e
  rw [getElem!_pos rev10 j (by rw [rev10_length]; exact hj)]
  exact Option.some.inj e

theorem rev_half (j : ℕ) (hj : j < 1024) : rev10[j / 2]! = 2 * rev10[j]! % 1024 := by
  have e := congrArg (fun l => l[j]?) rev10_double
  rw [flatMap_pair (fun x => x) (fun x => x) _ _ (by rw [List.length_take, rev10_length]; omega), List.getElem?_map, List.getElem?_eq_getElem (by rw [rev10_length]; exact hj)] at e
  have e' := Option.some.inj e
  have ht : (rev10.take 512)[j / 2]! = rev10[j / 2]! := by
    rw [List.getElem!_eq_getElem?_getD, List.getElem!_eq_getElem?_getD, List.getElem?_take_of_lt (by omega)]
  rw [ht, ite_self] at e'
  rw [getElem!_pos rev10 j (by rw [rev10_length]; exact hj)]; exact e'.symm

theorem rev_size (k : ℕ) (hk : k ≤ 10) (j : ℕ) (hj : j < 2 ^ k) : rev10[j]! % 2 ^ (10 - k) = 0 ∧ rev10[j <<< (10 - k)]! < 2 ^ k := by
  have h := List.all_eq_true.1 (List.all_eq_true.1 rev10_sizes k (List.mem_range.2 (by omega))) j (List.mem_range.2 hj)
  rw [Bool.and_eq_true, beq_iff_eq, decide_eq_true_eq] at h
  exact h

/-- The exponent at position `j` of the tables of size `2^k`. -/
def revk (k j : ℕ) : ℕ := rev10[j]! / 2 ^ (10 - k)

theorem pow_split (k : ℕ) (hk : k ≤ 10) : 2 ^ k * 2 ^ (10 - k) = 1024 := by rw [← pow_add, show k + (10 - k) = 10 by omega]; rfl

theorem lt_1024 (k : ℕ) (hk : k ≤ 10) (j : ℕ) (hj : j < 2 ^ k) : j < 1024 := by
  have := Nat.pow_le_pow_right (show 0 < 2 by norm_num) hk
  omega

theorem revk_mul (k : ℕ) (hk : k ≤ 10) (j : ℕ) (hj : j < 2 ^ k) : revk k j * 2 ^ (10 - k) = rev10[j]! :=
  Nat.div_mul_cancel (Nat.dvd_of_mod_eq_zero (rev_size k hk j hj).1)

theorem revk_lt (k : ℕ) (hk : k ≤ 10) (j : ℕ) (hj : j < 2 ^ k) : revk k j < 2 ^ k := by
  have h1 := revk_mul k hk j hj
  have h2 := rev_lt j (lt_1024 k hk j hj)
  rw [← h1, ← pow_split k hk] at h2
  exact Nat.lt_of_mul_lt_mul_right h2

theorem revk_index (k : ℕ) (hk : k ≤ 10) (j : ℕ) (hj : j < 2 ^ k) : rev10[revk k j <<< (10 - k)]! = j := by
  rw [Nat.shiftLeft_eq, revk_mul k hk j hj, rev_rev j (lt_1024 k hk j hj)]

theorem revk_of (k : ℕ) (hk : k ≤ 10) (u : ℕ) (hu : u < 2 ^ k) : revk k rev10[u <<< (10 - k)]! = u := by
  have : u <<< (10 - k) < 1024 := by
    rw [Nat.shiftLeft_eq, ← pow_split k hk]; exact Nat.mul_lt_mul_of_pos_right hu (by positivity)
  unfold revk
  rw [rev_rev _ this, Nat.shiftLeft_eq, Nat.mul_div_cancel _ (by positivity)]

theorem revk_half (k : ℕ) (hk : k + 1 ≤ 10) (j : ℕ) (hj : j < 2 ^ (k + 1)) :
    (j % 2 = 0 → 2 * revk (k + 1) j = revk (k + 1) (j / 2)) ∧ (j % 2 = 1 → 2 * revk (k + 1) j = 2 ^ (k + 1) + revk (k + 1) (j / 2)) := by
  have hj' := lt_1024 _ hk j hj
  have h1 := revk_mul (k + 1) hk j hj
  have h2 := revk_mul (k + 1) hk (j / 2) (by omega)
  have h3 := rev_half j hj'
  have h4 := rev_top j hj'
  have h5 := rev_lt j hj'
  have hs := pow_split (k + 1) hk
  generalize revk (k + 1) j = a at *
  generalize revk (k + 1) (j / 2) = b at *
  obtain ⟨d, hd⟩ : ∃ d, d = 2 ^ (10 - (k + 1)) := ⟨_, rfl⟩
  have hd0 : 0 < d := by rw [hd]; positivity
  rw [← hd] at h1 h2 hs
  constructor
  · intro he
    apply Nat.eq_of_mul_eq_mul_right hd0
    rw [h2, h3, mul_assoc, h1]; omega
  · intro he
    apply Nat.eq_of_mul_eq_mul_right hd0
    rw [add_mul, h2, h3, mul_assoc, h1, hs]; omega

/-! ## `modp_mkgm2` -/

theorem pow_loop (M : Modulus p p0i) (g : ℕ) (x : ZMod p) (hg : Mont p g x) : ∀ d, Mont p ((List.range d).foldl (fun g _ => modpMontymul g g p p0i) g) (x ^ 2 ^ d) := by
  intro d
  induction d with
  | zero => simpa using hg
  | succ d ih =>
    rw [List.range_succ, List.foldl_append, List.foldl_cons, List.foldl_nil, pow_succ, mul_comm, two_mul, pow_add]
    exact Mont.mul M ih ih

theorem table_loop (M : Modulus p p0i) (k : ℕ) (hk : k ≤ 10) (gm igm : List ℕ) (hl : gm.length = 2 ^ k) (hl' : igm.length = 2 ^ k) (g ig : ℕ) (x y : ZMod p) (hg : Mont p g x) (hig : Mont p ig y) :
    ∀ N ≤ 2 ^ k, ∃ G I a b, (List.range N).foldl (fun (st : (List Nat × List Nat) × (Nat × Nat)) u =>
        let v := rev10[u <<< (10 - k)]!
        ((st.1.1.set v st.2.1, st.1.2.set v st.2.2), (modpMontymul st.2.1 g p p0i, modpMontymul st.2.2 ig p p0i))) ((gm, igm), (modpR p, modpR p)) = ((G, I), (a, b)) ∧
      G.length = 2 ^ k ∧ I.length = 2 ^ k ∧ Mont p a (x ^ N) ∧ Mont p b (y ^ N) ∧
      ∀ j < 2 ^ k, revk k j < N → Mont p G[j]! (x ^ revk k j) ∧ Mont p I[j]! (y ^ revk k j) := by
  intro N
  induction N with
  | zero =>
    intro _
    exact ⟨gm, igm, modpR p, modpR p, rfl, hl, hl', by simpa using mont_R M, by simpa using mont_R M, fun j _ h => absurd h (by omega)⟩
  | succ N ih =>
    intro hN
    obtain ⟨G, I, a, b, e, l1, l2, ha, hb, h⟩ := ih (by omega)
    rw [List.range_succ, List.foldl_append, e, List.foldl_cons, List.foldl_nil]
    dsimp only
    refine ⟨_, _, _, _, rfl, by simpa using l1, by simpa using l2, by rw [pow_succ]; exact Mont.mul M ha hg, by rw [pow_succ]; exact Mont.mul M hb hig, ?_⟩
    intro j hj hlt
    have hv : rev10[N <<< (10 - k)]! = j ↔ N = revk k j := by
      constructor
      · intro h; rw [← h, revk_of k hk N (by omega)]
      · intro h; rw [h, revk_index k hk j hj]
    rw [getElem!_set, getElem!_set]
    by_cases hN' : N = revk k j
    · have hv := hv.2 hN'
      rw [if_pos ⟨hv, by omega⟩, if_pos ⟨hv, by omega⟩, ← hN']
      exact ⟨ha, hb⟩
    · have hv : ¬ rev10[N <<< (10 - k)]! = j := fun h => hN' (hv.1 h)
      rw [if_neg (fun h => hv h.1), if_neg (fun h => hv h.1)]
      exact h j hj (by omega)

/-- `g` is a root of `x^1024 + 1` modulo `p`. -/
structure Root (p g : ℕ) : Prop where
  lt : g < p
  pow : (g : ZMod p) ^ 1024 = -1

/-- The root the transform of size `2^k` uses. -/
def gk (p g k : ℕ) : ZMod p := (g : ZMod p) ^ 2 ^ (10 - k)

theorem gk_pow (g k : ℕ) (hk : k ≤ 10) (h : (g : ZMod p) ^ 1024 = -1) : gk p g k ^ 2 ^ k = -1 := by
  unfold gk
  rw [← pow_mul, mul_comm, pow_split k hk, h]

theorem gk_ne (M : Modulus p p0i) (g k : ℕ) (hk : k ≤ 10) (h : Root p g) : gk p g k ≠ 0 := by
  have : Fact p.Prime := ⟨M.prime⟩
  intro h0
  have h1 := gk_pow g k hk h.pow
  rw [h0, zero_pow (by positivity)] at h1
  exact one_ne_zero (neg_eq_zero.1 h1.symm)

/-- C90: `modp_mkgm2` fills the tables with the powers of the root and of its inverse, in bit-reversed order. -/
theorem mkgm2_ok (M : Modulus p p0i) (k : ℕ) (hk : k ≤ 10) (gm igm : List ℕ) (hl : gm.length = 2 ^ k) (hl' : igm.length = 2 ^ k) (g : ℕ) (hg : Root p g) :
    (mkgm2 gm igm k g p p0i).1.length = 2 ^ k ∧ (mkgm2 gm igm k g p p0i).2.length = 2 ^ k ∧
    ∀ j < 2 ^ k, Mont p (mkgm2 gm igm k g p p0i).1[j]! (gk p g k ^ revk k j) ∧ Mont p (mkgm2 gm igm k g p p0i).2[j]! ((gk p g k)⁻¹ ^ revk k j) := by
  have : Fact p.Prime := ⟨M.prime⟩
  have hR := Rf_ne M
  have h2 := modpR2_eq M
  have h1 : Mont p (modpMontymul g (modpR2 p p0i) p p0i) (g : ZMod p) := by
    obtain ⟨a, b⟩ := Plain.mulMont M (a := g) (x := (g : ZMod p)) ⟨hg.lt, rfl⟩ h2
    exact ⟨a, b⟩
  have h3 := pow_loop M _ _ h1 (10 - k)
  unfold mkgm2
  dsimp only
  generalize (List.range (10 - k)).foldl (fun g _ => modpMontymul g g p p0i) (modpMontymul g (modpR2 p p0i) p p0i) = gg at h3
  have h4 : Mont p (modpDiv (modpR2 p p0i) gg p p0i (modpR p)) (gk p g k)⁻¹ := by
    obtain ⟨a, b⟩ := modpDiv_eq M (modpR2 p p0i) gg h2.1 h3.1
    refine ⟨a, ?_⟩
    rw [b, h2.2, h3.2, mul_inv]
    unfold gk
    field_simp
  obtain ⟨G, I, a, b, e, l1, l2, _, _, h⟩ := table_loop M k hk gm igm hl hl' gg _ _ _ h3 h4 (2 ^ k) le_rfl
  rw [e]
  exact ⟨l1, l2, fun j hj => h j hj (revk_lt k hk j hj)⟩

theorem psi_of (M : Modulus p p0i) (gm : List ℕ) (j : ℕ) (x : ZMod p) (h : Mont p gm[j]! x) : ((psi p gm j : ℕ) : ZMod p) = x := by
  have : Fact p.Prime := ⟨M.prime⟩
  unfold psi
  rw [ZMod.natCast_zmod_val, h.2, mul_assoc, mul_inv_cancel₀ (Rf_ne M), mul_one]

/-- The tables of `modp_mkgm2` satisfy what the proofs about transforms need. -/
theorem law_mkgm2 (M : Modulus p p0i) (k : ℕ) (hk : k ≤ 10) (gm igm : List ℕ) (hl : gm.length = 2 ^ k) (hl' : igm.length = 2 ^ k) (g : ℕ) (hg : Root p g) :
    Law p k (psi p (mkgm2 gm igm k g p p0i).1) (psi p (mkgm2 gm igm k g p p0i).2) ∧ CanonP p (mkgm2 gm igm k g p p0i).1 ∧ CanonP p (mkgm2 gm igm k g p p0i).2 := by
  have : Fact p.Prime := ⟨M.prime⟩
  obtain ⟨l1, l2, h⟩ := mkgm2_ok M k hk gm igm hl hl' g hg
  generalize (mkgm2 gm igm k g p p0i).1 = G at *
  generalize (mkgm2 gm igm k g p p0i).2 = I at *
  have e1 : ∀ j < 2 ^ k, ((psi p G j : ℕ) : ZMod p) = gk p g k ^ revk k j := fun j hj => psi_of M G j _ (h j hj).1
  have e2 : ∀ j < 2 ^ k, ((psi p I j : ℕ) : ZMod p) = (gk p g k)⁻¹ ^ revk k j := fun j hj => psi_of M I j _ (h j hj).2
  refine ⟨⟨?_, fun i h0 hi => ?_, fun i h0 hi => ?_⟩, canonP_of _ (p_pos M) _ l1 fun x hx => (h x hx).1.1, canonP_of _ (p_pos M) _ l2 fun x hx => (h x hx).2.1⟩
  · rw [e1 0 (by positivity)]
    have : revk k 0 = 0 := by unfold revk; rw [show rev10[0]! = 0 by decide +kernel]; simp
    rw [this, pow_zero]
  · cases k with
    | zero => omega
    | succ k =>
      obtain ⟨r1, r2⟩ := revk_half k hk i hi
      unfold node
      dsimp only
      rw [e1 i hi, e1 (i / 2) (by omega), ← pow_mul, mul_comm]
      split
      · next he => rw [r1 he]
      · next he => rw [r2 (by omega), pow_add, gk_pow g (k + 1) hk hg.pow]; ring
  · rw [e1 i hi, e2 i hi, ← mul_pow, mul_inv_cancel₀ (gk_ne M g k hk hg), one_pow]

theorem ntt2_eq (M : Modulus p p0i) (gm : List ℕ) (hg : CanonP p gm) (k : ℕ) (a : List ℕ) (h : CanonP p a) :
    ntt2 a gm k p p0i = nttFw (psi p gm) p (2 ^ k) a ∧ CanonP p (ntt2 a gm k p p0i) := by
  obtain ⟨e1, e2⟩ := fwOuter_eq M gm hg (2 ^ k) k (2 ^ k) 1 a (by omega) h
  have e : ntt2 a gm k p p0i = fwOuter p p0i gm (2 ^ k) (2 ^ k) (2 ^ k) 1 a := by
    unfold ntt2
    split
    · next h0 => rw [h0]; rfl
    · rfl
  rw [e, e1]
  exact ⟨rfl, e2⟩

end Verif.CRef.Kg
