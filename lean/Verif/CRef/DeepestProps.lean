import Verif.CRef.DeepestStep
import Verif.CRef.ZintBezout
import Verif.Ring.Resultant

/-! # C114, C115: the descent of the NTRU solver and its deepest level -/

namespace Verif.CRef.Kg

open Verif.NTT Verif.Ring Verif.Falcon

/-- The polynomials of all levels above `depth` fit the words that `MAX_BL_SMALL` provides for them. -/
def FitsLevels (depth : ℕ) (a : List ℤ) : Prop := ∀ d < depth, ∀ z ∈ fieldNorm^[d] a, 2 * |z| < (((primeList.take maxBlSmall[d]!).prod : ℕ) : ℤ)

theorem bl_small : ∀ d < 11, 1 ≤ maxBlSmall[d]! ∧ maxBlSmall[d]! ≤ 209 := by decide

theorem norm_length (logn : ℕ) (a : List ℤ) (la : a.length = 2 ^ logn) : ∀ d ≤ logn, (fieldNorm^[d] a).length = 2 ^ (logn - d)
  | 0, _ => la
  | d + 1, h => by
    rw [Function.iterate_succ_apply', length_fieldNorm, norm_length logn a la d (by omega), show logn - d = logn - (d + 1) + 1 by omega, pow_succ]
    omega

theorem start (f : List ℤ) (hf : ∀ z ∈ f, -128 ≤ z ∧ z ≤ 127) : (f.map fun x => [modpSet x (primes[0]!).1]) = f.map (rns 1) := by
  apply List.map_congr_left
  intro z hz
  obtain ⟨b1, b2⟩ := hf z hz
  have M := modulus_table 0 (by norm_num)
  have lo := M.lo
  have e := (C91_arith 0 (by norm_num) 0 0 (by omega) (by omega)).2.2.2.2.2.2 z (by omega) (by omega)
  rw [primes_fst 0 (by norm_num)]
  have : rns 1 z = [(z % ((primeList[0]! : ℕ) : ℤ)).toNat] := rfl
  rw [this, ← e]
  simp

theorem make_loop (logn depth : ℕ) (hl : logn ≤ 10) (hd : depth ≤ logn) (o : Bool) (f : List ℤ) (lf : f.length = 2 ^ logn) (hf : ∀ z ∈ f, -128 ≤ z ∧ z ≤ 127) (hb : FitsLevels depth f) : ∀ d ≤ depth,
    Rep (d != 0 && (decide (d < depth) || o)) (logn - d) maxBlSmall[d]! ((List.range d).foldl (fun x d => makeFgStep x (logn - d) d (d != 0) (decide (d + 1 < depth) || o)) (f.map fun x => [modpSet x (primes[0]!).1])) (fieldNorm^[d] f)
  | 0, _ => by
    rw [start f hf]
    rfl
  | d + 1, h => by
    have ih := make_loop logn depth hl hd o f lf hf hb d (by omega)
    rw [List.range_succ, List.foldl_append, List.foldl_cons, List.foldl_nil, Function.iterate_succ_apply']
    generalize (List.range d).foldl _ _ = x at *
    obtain ⟨k, hk⟩ : ∃ k, logn - d = k + 1 := ⟨logn - (d + 1), by omega⟩
    have hk' : logn - (d + 1) = k := by omega
    have ll := norm_length logn f lf d (by omega)
    have e1 : (d != 0 && (decide (d < depth) || o)) = (d != 0) := by rw [decide_eq_true (by omega : d < depth)]; simp
    have e2 : (d + 1 != 0 && (decide (d + 1 < depth) || o)) = (decide (d + 1 < depth) || o) := by simp
    rw [hk] at ih ll ⊢
    rw [e1] at ih
    rw [e2, hk']
    have b0 := bl_small d (by omega)
    have b1 := bl_small (d + 1) (by omega)
    exact step_ok k (by omega) d b0.1 (by omega) (by omega) x _ ll (hb d (by omega)) _ _ ih

/-- **C114**: `make_fg` computes, for every depth, the residues of the iterated field norm modulo the first `MAX_BL_SMALL[depth]` primes, or their transforms. -/
theorem C114_make_fg (logn depth : ℕ) (hl : logn ≤ 10) (hd : depth ≤ logn) (o : Bool) (f : List ℤ) (lf : f.length = 2 ^ logn) (hf : ∀ z ∈ f, -128 ≤ z ∧ z ≤ 127) (hb : FitsLevels depth f) :
    Rep o (logn - depth) maxBlSmall[depth]! (makeFg f logn depth o) (fieldNorm^[depth] f) := by
  unfold makeFg
  dsimp only
  split
  · next c =>
    obtain ⟨rfl, rfl⟩ := c
    rw [start f hf, show maxBlSmall[0]! = 1 from rfl, Nat.sub_zero, Function.iterate_zero, id, primes_fst 0 (by norm_num)]
    unfold Rep
    rw [if_pos rfl, column_rns 1 f 0 (by norm_num)]
    obtain ⟨L, c1, _⟩ := tabs_law logn hl 0 (by norm_num)
    obtain ⟨l, _, _⟩ := ntt_eval (modulus_table 0 (by norm_num)) L c1 f lf
    refine ⟨by rw [List.length_map, l], fun u hu => ?_⟩
    obtain rfl : u = 0 := by omega
    unfold column
    rw [List.map_map]
    conv_rhs => rw [← List.map_id (ntt2 _ _ _ _ _)]
    rfl
  · next c =>
    have h := make_loop logn depth hl hd o f lf hf hb depth le_rfl
    have e : (depth != 0 && (decide (depth < depth) || o)) = o := by
      rcases Nat.eq_zero_or_pos depth with rfl | h0
      · cases o with
        | true => exact absurd ⟨rfl, rfl⟩ c
        | false => rfl
      · rw [decide_eq_false (lt_irrefl depth), bne_iff_ne.2 (by omega)]; simp
    rw [e] at h
    exact h

/-- **C114** (plain form). -/
theorem C114_plain (logn depth : ℕ) (hl : logn ≤ 10) (hd : depth ≤ logn) (f : List ℤ) (lf : f.length = 2 ^ logn) (hf : ∀ z ∈ f, -128 ≤ z ∧ z ≤ 127) (hb : FitsLevels depth f) :
    makeFg f logn depth false = (fieldNorm^[depth] f).map (rns maxBlSmall[depth]!) := C114_make_fg logn depth hl hd false f lf hf hb

/-- **C114** (transformed form): for every degree and every prime there are points, roots of `X^n + 1` that determine polynomials of that degree, such that the words `make_fg` stores are the values of the
iterated norm at these points. -/
theorem C114_values (k u : ℕ) (hk : k ≤ 10) (hu5 : u < 521) : ∃ r : ℕ → ZMod primeList[u]!, (∀ v < 2 ^ k, r v ^ 2 ^ k = -1) ∧
    (∀ a b : List (ZMod primeList[u]!), a.length = 2 ^ k → b.length = 2 ^ k → (∀ v < 2 ^ k, ev (r v) a = ev (r v) b) → a = b) ∧
    ∀ (logn depth : ℕ) (_ : logn ≤ 10) (_ : depth ≤ logn) (_ : logn - depth = k) (_ : u < maxBlSmall[depth]!) (f : List ℤ) (_ : f.length = 2 ^ logn) (_ : ∀ z ∈ f, -128 ≤ z ∧ z ≤ 127) (_ : FitsLevels depth f),
      (makeFg f logn depth true).length = 2 ^ k ∧ ∀ v < 2 ^ k, ((((makeFg f logn depth true)[v]!)[u]! : ℕ) : ZMod primeList[u]!) = ev (r v) (fieldNorm^[depth] f) := by
  obtain ⟨L, c1, _⟩ := tabs_law k hk u hu5
  refine ⟨fun v => node (fun i => (psi primeList[u]! (tabs k u).1 i : ZMod primeList[u]!)) (2 ^ k + v), fun v hv => L.node_pow v hv, fun a b la lb h => ev_inj (modulus_table u hu5) L a b la lb h, ?_⟩
  intro logn depth hl hd hk' hu f lf hf hb
  subst hk'
  have h : InNtt _ _ _ _ := C114_make_fg logn depth hl hd true f lf hf hb
  obtain ⟨_, _, e⟩ := ntt_eval (modulus_table u hu5) L c1 _ (norm_length logn f lf depth hd)
  refine ⟨h.1, fun v hv => ?_⟩
  rw [← e v hv, ← h.2 u hu]
  unfold column
  have hv' : v < (makeFg f logn depth true).length := by rw [h.1]; exact hv
  rw [getElem!_pos (List.map _ _) v (by simpa using hv'), List.getElem_map, getElem!_pos _ v hv']

/-! ## The deepest level -/

theorem res_iter (logn : ℕ) (f : List ℤ) (lf : f.length = 2 ^ logn) : ∀ d ≤ logn, res f = res (fieldNorm^[d] f)
  | 0, _ => rfl
  | d + 1, h => by
    rw [Function.iterate_succ_apply', ← res_fieldNorm (logn - (d + 1)) _ (by rw [norm_length logn f lf d (by omega)]; congr 1; omega)]
    exact res_iter logn f lf d (by omega)

theorem deepest_norm (logn : ℕ) (f : List ℤ) (lf : f.length = 2 ^ logn) : fieldNorm^[logn] f = [res f] := by
  have l := norm_length logn f lf logn le_rfl
  rw [Nat.sub_self, pow_zero] at l
  have e := res_iter logn f lf logn le_rfl
  obtain ⟨x, hx⟩ := List.length_eq_one_iff.1 l
  rw [hx] at e ⊢
  rw [res_single [x] rfl] at e
  rw [e]; rfl

theorem negate_words (m : ℕ) : ∀ (a : List ℕ) (cc : ℕ), Words (zintNegateLoop m a cc)
  | [], _ => by intro w hw; simp [zintNegateLoop] at hw
  | a :: as, cc => by
    intro w hw
    unfold zintNegateLoop at hw
    dsimp only at hw
    rcases List.mem_cons.1 hw with rfl | hw
    · have := Nat.and_le_right (n := add32 (a ^^^ m) cc) (m := 0x7FFFFFFF)
      omega
    · exact negate_words m as _ w hw

theorem bezResult_flag (a : List ℕ) (wa : Words a) (x0 y0 : ℕ) : bezResult a x0 y0 = 0 ∨ bezResult a x0 y0 = 1 := by
  unfold bezResult
  dsimp only
  have h0 : a[0]! < 2 ^ 31 := by
    match a, wa with
    | [], _ => decide
    | w :: l, wa => exact wa.head
  have ht : Words a.tail := fun w hw => wa w (List.mem_of_mem_tail hw)
  have hlt := or_lt a.tail (a[0]! ^^^ 1) (Nat.xor_lt_two_pow h0 (by norm_num)) ht
  generalize a.tail.foldl (fun rc w => rc ||| w) (a[0]! ^^^ 1) = rc at *
  by_cases hr : rc = 0
  · rw [hr, show sub32 1 ((0 ||| neg32 0) >>> 31) = 1 by decide]
    have l1 : 1 &&& x0 &&& y0 ≤ 1 := Nat.and_le_left.trans Nat.and_le_left
    omega
  · rw [nz_top rc (by omega) hr, show sub32 1 1 = 0 by decide, Nat.zero_and, Nat.zero_and]
    exact Or.inl rfl

/-- The returned value of `zint_bezout` is 0 or 1. -/
theorem bezout_flag (x y : List ℕ) : (zintBezout x y).2.2 = 0 ∨ (zintBezout x y).2.2 = 1 := by
  unfold zintBezout
  split
  · exact Or.inl rfl
  · dsimp only
    refine bezResult_flag _ ?_ _ _
    rw [List.range_succ, List.foldl_append]
    exact negate_words _ _ _

/-- An integer in `[0, P)` is determined by its residues. -/
theorem rns_unique_nat (c : ℕ) (hc : c ≤ 521) (y : ℕ) (z : ℤ) (hy : y < (primeList.take c).prod) (h0 : 0 ≤ z) (hz : z < (((primeList.take c).prod : ℕ) : ℤ)) (h : ∀ i < c, y % primeList[i]! = (rns c z)[i]!) : (y : ℤ) = z := by
  have d : (((primeList.take c).prod : ℕ) : ℤ) ∣ y - z := prod_dvd _ c hc fun i hi => by
    have e := h i hi
    have e' : ((y : ℤ) % ((primeList[i]! : ℕ) : ℤ)) = (((rns c z)[i]! : ℕ) : ℤ) := by rw [← e]; norm_cast
    rw [rns_get c z i hi, Int.toNat_of_nonneg (Int.emod_nonneg _ (by have := p_pos (modulus_table i (by omega)); omega))] at e'
    exact Int.dvd_of_emod_eq_zero (Int.emod_eq_emod_iff_emod_sub_eq_zero.1 e')
  have := Int.eq_zero_of_abs_lt_dvd d (by rw [abs_lt]; omega)
  omega

/-- **C115**: if `solve_NTRU_deepest` succeeds, its answers solve `Res(f) G - Res(g) F = 12289`, where `Res` is the resultant with `X^n + 1`, and they are not larger than `12289` times the resultants. -/
theorem C115_deepest (logn : ℕ) (h1 : 1 ≤ logn) (h2 : logn ≤ 10) (f g : List ℤ) (lf : f.length = 2 ^ logn) (lg : g.length = 2 ^ logn) (hf : ∀ z ∈ f, -128 ≤ z ∧ z ≤ 127) (hg : ∀ z ∈ g, -128 ≤ z ∧ z ≤ 127)
    (bf : FitsLevels logn f) (bg : FitsLevels logn g) (rf : res f < (((primeList.take maxBlSmall[logn]!).prod : ℕ) : ℤ)) (rg : res g < (((primeList.take maxBlSmall[logn]!).prod : ℕ) : ℤ)) (rg1 : 1 < res g)
    (F G : List ℕ) (run : solveDeepest logn f g = some (F, G)) :
    res f * big G - res g * big F = 12289 ∧ (big G : ℤ) < 12289 * res g ∧ (big F : ℤ) < 12289 * res f ∧ F.length = maxBlSmall[logn]! ∧ G.length = maxBlSmall[logn]! ∧ Words F ∧ Words G := by
  obtain ⟨s, rfl⟩ : ∃ s, logn = s + 1 := ⟨logn - 1, by omega⟩
  have pf := C114_plain (s + 1) (s + 1) h2 le_rfl f lf hf bf
  have pg := C114_plain (s + 1) (s + 1) h2 le_rfl g lg hg bg
  rw [deepest_norm _ f lf] at pf
  rw [deepest_norm _ g lg] at pg
  have nf := res_nonneg s f lf
  have ng := res_nonneg s g lg
  obtain ⟨b1, b2⟩ := bl_small (s + 1) (by omega)
  unfold solveDeepest at run
  dsimp only at run
  rw [pf, pg] at run
  generalize maxBlSmall[s + 1]! = len at *
  have i0 : ∀ z : ℤ, (([z] : List ℤ).map (rns len))[0]! = rns len z := fun _ => rfl
  rw [i0, i0] at run
  obtain ⟨r1, r2⟩ := rows_low len (by omega) [res f, res g]
  have C := (C101_crt len b1 (by omega) _ r1 r2).1
  have e2 : ([res f, res g] : List ℤ).map (rns len) = [rns len (res f), rns len (res g)] := rfl
  rw [e2] at C
  obtain ⟨x, y, hxy⟩ : ∃ x y, zintRebuildCRT [rns len (res f), rns len (res g)] len primes false = [x, y] := by
    generalize zintRebuildCRT [rns len (res f), rns len (res g)] len primes false = l at C
    have := C.length_eq
    match l, this with
    | [x, y], _ => exact ⟨x, y, rfl⟩
  rw [hxy] at C run
  rw [List.forall₂_cons, List.forall₂_cons] at C
  obtain ⟨⟨lx, wx, bx, ex⟩, ⟨ly, wy, by', ey⟩, _⟩ := C
  have vx : (big x : ℤ) = res f := rns_unique_nat len (by omega) _ _ bx nf rf ex
  have vy : (big y : ℤ) = res g := rns_unique_nat len (by omega) _ _ by' ng rg ey
  have g0 : ([x, y] : List (List ℕ))[0]! = x := rfl
  have g1 : ([x, y] : List (List ℕ))[1]! = y := rfl
  rw [g0, g1] at run
  obtain ⟨u, v, r, hb⟩ : ∃ u v r, zintBezout x y = (u, v, r) := ⟨_, _, _, rfl⟩
  rw [hb] at run
  dsimp only at run
  split at run
  · cases run
  next hr =>
    split at run
    · cases run
    next hc =>
      have run' := Option.some.inj run
      obtain ⟨rfl, rfl⟩ := Prod.mk.inj run'
      have r1 : r = 1 := by
        have : (zintBezout x y).2.2 = 0 ∨ (zintBezout x y).2.2 = 1 := bezout_flag x y
        rw [hb] at this
        exact this.resolve_left hr
      subst r1
      obtain ⟨e, bu, bv, lu, lv, wu, wv⟩ := C102_bezout x y u v (by omega) wx wy (by omega) hb
      have mF := C101_mul_small v 12289 wv (by norm_num)
      have mG := C101_mul_small u 12289 wu (by norm_num)
      rw [not_or, not_not, not_not] at hc
      rw [hc.1, zero_mul, add_zero] at mF
      rw [hc.2, zero_mul, add_zero] at mG
      refine ⟨?_, ?_, ?_, by omega, by omega, mF.2.1, mG.2.1⟩
      · rw [mF.2.2.2, mG.2.2.2, ← vx, ← vy]
        push_cast
        linear_combination 12289 * e
      · rw [mG.2.2.2, ← vy]; push_cast; omega
      · rw [mF.2.2.2, ← vx]; push_cast; omega

/-- A concrete run: `Res = 6161` and `6101` for the private key of C108. -/
example : solveDeepest 1 [-56, 55] [-74, -25] = some ([23975839], [23742348]) := by decide +kernel

example : FitsLevels 1 [-56, 55] ∧ FitsLevels 1 [-74, -25] := by
  constructor <;>
  · intro d hd z hz
    obtain rfl : d = 0 := by omega
    have hz' : z ∈ _ := hz
    simp only [Function.iterate_zero, id, List.mem_cons, List.not_mem_nil, or_false] at hz'
    have hp := (modulus_table 0 (by norm_num)).lo
    have e : (primeList.take maxBlSmall[0]!).prod = primeList[0]! := by decide +kernel
    rw [e]
    have hz2 : |z| ≤ 128 := by rcases hz' with rfl | rfl <;> decide
    omega

example : res [-56, 55] = 6161 ∧ res [-74, -25] = 6101 := by
  constructor
  · have := deepest_norm 1 [-56, 55] rfl
    rw [show fieldNorm^[1] ([-56, 55] : List ℤ) = [6161] by decide +kernel] at this
    exact (List.cons.inj this).1.symm
  · have := deepest_norm 1 [-74, -25] rfl
    rw [show fieldNorm^[1] ([-74, -25] : List ℤ) = [6101] by decide +kernel] at this
    exact (List.cons.inj this).1.symm

/-- A descent over two levels with the transform in between. -/
example : makeFg [3, -1, 4, 1] 2 2 false = [rns 2 (res [3, -1, 4, 1])] := by
  have fit : FitsLevels 2 [3, -1, 4, 1] := by
    intro d hd z hz
    have hp := (modulus_table 0 (by norm_num)).lo
    have e0 : (primeList.take maxBlSmall[0]!).prod = primeList[0]! := by decide +kernel
    have e1 : (primeList.take maxBlSmall[1]!).prod = primeList[0]! := by decide +kernel
    rcases (by omega : d = 0 ∨ d = 1) with rfl | rfl
    · simp only [Function.iterate_zero, id, List.mem_cons, List.not_mem_nil, or_false] at hz
      rw [e0]
      have hz2 : |z| ≤ 128 := by rcases hz with rfl | rfl | rfl | rfl <;> decide
      omega
    · have h : ∀ z ∈ fieldNorm^[1] ([3, -1, 4, 1] : List ℤ), |z| ≤ 1000 := by decide +kernel
      have := h z hz
      rw [e1]; omega
  have h := C114_plain 2 2 (by norm_num) le_rfl [3, -1, 4, 1] rfl (by decide) fit
  rw [deepest_norm 2 _ rfl] at h
  exact h

end Verif.CRef.Kg
