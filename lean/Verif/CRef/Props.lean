import Verif.CRef.Norm

/-! # C76, C77: the C verifier -/

namespace Verif.CRef

open Verif.NTT Verif.Ring Verif.Falcon

theorem Poly.canon {n : ℕ} {a : List ℕ} (h : Poly n a) : Canon a := (canon_iff a).2 h.2
theorem poly_of {n : ℕ} {a : List ℕ} (h : a.length = n) (h' : Canon a) : Poly n a := ⟨h, (canon_iff a).1 h'⟩

/-! ## C76 -/

/-- **C76** (field): on canonical residues the C primitives add, subtract, halve and multiply with a factor `2^-16` modulo q, with canonical results. -/
theorem C76_field (x y : ℕ) (hx : x < 12289) (hy : y < 12289) :
    mqAdd x y = (x + y) % 12289 ∧ mqSub x y = (x + 12289 - y) % 12289 ∧ (mqRshift1 x < 12289 ∧ 2 * mqRshift1 x % 12289 = x) ∧
    (mqMontymul x y < 12289 ∧ mqMontymul x y * 2 ^ 16 % 12289 = x * y % 12289) :=
  ⟨mqAdd_eq x y hx hy, by rw [mqSub_eq x y hx hy]; congr 1; omega, mqRshift1_eq x hx, mqMontymul_raw x y hx hy⟩

/-- **C76** (division): for a nonzero divisor the result is the canonical quotient; dividing by zero gives zero. -/
theorem C76_div (x y : ℕ) (hx : x < 12289) (hy : y < 12289) : mqDiv x y < 12289 ∧ (0 < y → mqDiv x y * y % 12289 = x) ∧ (y = 0 → mqDiv x y = 0) := by
  have hlt := (mqDiv_eq x y hx hy).1
  refine ⟨hlt, fun h => ?_, fun h => ?_⟩
  · have := mqDiv_mul x y hx hy h
    rw [← Nat.cast_mul, ZMod.natCast_eq_natCast_iff] at this
    have e : mqDiv x y * y % 12289 = x % 12289 := this
    rwa [Nat.mod_eq_of_lt hx] at e
  · have e := (mqDiv_eq x y hx hy).2
    rw [h, Nat.cast_zero, zero_pow (by norm_num), mul_zero, ZMod.natCast_eq_zero_iff] at e
    have e' : mqDiv x 0 % 12289 = 0 := Nat.mod_eq_zero_of_dvd e
    rw [h] at hlt ⊢
    rwa [Nat.mod_eq_of_lt hlt] at e'

example : mqDiv 5 7 * 7 % 12289 = 5 := (C76_div 5 7 (by norm_num) (by norm_num)).2.1 (by norm_num)

/-- **C76** (inverse): in every size from 1 to 1024 the forward and inverse transforms are mutually inverse on canonical residues, and keep residues canonical. -/
theorem C76_inverse (k : ℕ) (hk : k ≤ 10) (a : List ℕ) (ha : Poly (2 ^ k) a) : Poly (2 ^ k) (mqNTT k a) ∧ Poly (2 ^ k) (mqINTT k a) ∧
    mqINTT k (mqNTT k a) = a ∧ mqNTT k (mqINTT k a) = a := by
  obtain ⟨f1, f2⟩ := mqNTT_ok k a ha.1 ha.canon
  obtain ⟨g1, g2⟩ := mqINTT_ok k a ha.1 ha.canon
  exact ⟨poly_of f1 f2, poly_of g1 g2, mqINTT_mqNTT k hk a ha.1 ha.canon, mqNTT_mqINTT k hk a ha.1 ha.canon⟩

theorem toNttMonty_ok (k : ℕ) (hk : k ≤ 10) (b : List ℕ) (hb : Poly (2 ^ k) b) : Poly (2 ^ k) (toNttMonty k b) ∧
    ∀ i < 2 ^ k, (((toNttMonty k b)[i]! : ℕ) : ZMod 12289) = ev (rootC k i) (NTT.toZ 12289 b) * 65536 := by
  obtain ⟨f1, f2⟩ := mqNTT_ok k b hb.1 hb.canon
  obtain ⟨g1, g2, g3⟩ := polyToMonty_ok k _ f2
  exact ⟨poly_of g1 g2, fun i hi => by unfold toNttMonty; rw [g3 i hi, mqNTT_ev k hk b hb.1 hb.canon i hi]⟩

/-- The product with a key in NTT and Montgomery form. -/
theorem product_ok (k : ℕ) (hk : k ≤ 10) (a b : List ℕ) (ha : Poly (2 ^ k) a) (hb : Poly (2 ^ k) b) :
    IsProduct 12289 a b (mqINTT k (polyMontymul k (mqNTT k a) (toNttMonty k b))) := by
  obtain ⟨f1, f2⟩ := mqNTT_ok k a ha.1 ha.canon
  obtain ⟨t1, t2⟩ := toNttMonty_ok k hk b hb
  obtain ⟨g1, g2⟩ := mqNTT_ok k b hb.1 hb.canon
  obtain ⟨p1, p2, p3⟩ := polyMontymul_ok k _ _ f2 t1.canon
  obtain ⟨i1, i2⟩ := mqINTT_ok k _ p1 p2
  have e : polyMontymul k (mqNTT k a) (toNttMonty k b) = vecMul 12289 (2 ^ k) (nttFw psiC 12289 (2 ^ k) a) (mqNTT k b) := by
    apply list_eq_of_res (q := 12289) _ _ (by rw [p1, length_vecMul]) (fun x _ => p2 x)
    · intro x hx; rw [p1] at hx; exact vecMul_lt q_pos _ _ _ x hx
    · intro x hx
      rw [p1] at hx
      rw [res_vecMul q_pos _ _ _ x hx, ← mqNTT_eq k a ha.canon]
      unfold res
      rw [p3 x hx, t2 x hx, mqNTT_ev k hk b hb.1 hb.canon x hx]
      linear_combination (((mqNTT k a)[x]! : ℕ) : ZMod 12289) * ev (rootC k x) (NTT.toZ 12289 b) * inv_R
  refine ⟨by rw [i1, ha.1], (canon_iff _).1 i2, ?_⟩
  rw [ha.1, mqINTT_eq k _ p1 p2, e]
  exact (lawC k hk).half_mul q_pos qF_lt (scaleC k) (scaleC_inv k) a _ ha.1 _ (by rw [length_toZ, hb.1])
    (fun x hx => mqNTT_ev k hk b hb.1 hb.canon x hx)

/-- **C76** (product): transform, multiply pointwise by a key in NTT and Montgomery form and transform back is the product in `Z_q[x]/(x^n+1)`, in every size from 1 to 1024. -/
theorem C76_product (k : ℕ) (hk : k ≤ 10) (a b : List ℕ) (ha : Poly (2 ^ k) a) (hb : Poly (2 ^ k) b) :
    IsProduct 12289 a b (mqINTT k (polyMontymul k (mqNTT k a) (toNttMonty k b))) := product_ok k hk a b ha hb

example : ∃ c, IsProduct 12289 [1, 2, 3, 4] [5, 6, 7, 12288] c :=
  ⟨_, C76_product 2 (by norm_num) [1, 2, 3, 4] [5, 6, 7, 12288] ⟨rfl, by decide⟩ ⟨rfl, by decide⟩⟩

/-! ## The contract's transform -/

theorem fwGroup_congr (q S S' t j1 : ℕ) (h : S = S') (a : List ℕ) : fwGroup q S t j1 a = fwGroup q S' t j1 a := by rw [h]

theorem fwStage_congr (psi psi' : ℕ → ℕ) (q n m t : ℕ) (h : ∀ j < n, psi j = psi' j) (hm : 2 * m ≤ n) (a : List ℕ) : fwStage psi q m t a = fwStage psi' q m t a := by
  unfold fwStage
  apply List.foldl_ext
  intro b i hi
  rw [h (m + i) (by have := List.mem_range.1 hi; omega)]

theorem fwLoop_congr (psi psi' : ℕ → ℕ) (q n : ℕ) (h : ∀ j < n, psi j = psi' j) : ∀ (d fuel m t : ℕ) (a : List ℕ), m * 2 ^ d = n →
    fwLoop psi q n fuel t m a = fwLoop psi' q n fuel t m a := by
  intro d fuel
  induction fuel generalizing d with
  | zero => intros; rfl
  | succ fuel ih =>
    intro m t a hm
    unfold fwLoop
    by_cases hl : m < n
    · rw [if_pos hl, if_pos hl]
      cases d with
      | zero => omega
      | succ d =>
        have h2 : 2 * m ≤ n := by rw [← hm, pow_succ]; nlinarith [Nat.one_le_two_pow (n := d)]
        rw [fwStage_congr psi psi' q n m _ h h2]
        exact ih d _ _ _ (by rw [← hm]; ring)
    · rw [if_neg hl, if_neg hl]

/-- **C76** (one key format): the 512-point transform of the C code, used to publish keys, is the contract's transform: the values at the contract's evaluation points in the contract's order. -/
theorem C76_contract (a : List ℕ) (ha : Poly 512 a) : toNtt 9 a = fw512 a ∧ IsTransform a (toNtt 9 a) := by
  have e : toNtt 9 a = fw512 a := by
    unfold toNtt fw512
    rw [mqNTT_eq 9 a ha.canon]
    refine fwLoop_congr psiC (chunk fwWords) 12289 512 (fun j hj => ?_) 9 512 1 512 a (by norm_num)
    have h1 := (C76_tables.2 j hj).1
    obtain ⟨f1, f2, _⟩ := C34_forward_tables j hj
    unfold psiC
    rw [h1, f1, f2, Nat.mod_mul_mod, mul_assoc, show 65536 * 2304 = 1 + 12289 * 12287 by norm_num, mul_add, mul_one, ← mul_assoc, mul_comm _ 12289, mul_assoc,
      Nat.add_mul_mod_self_left, Nat.mod_mod]
  exact ⟨e, by rw [e]; exact C32_forward a ha.1⟩

/-! ## C77 -/

theorem sq_le_normSq (s : List ℤ) (x : ℤ) (hx : x ∈ s) : x * x ≤ normSq s := by
  unfold normSq
  induction s with
  | nil => cases hx
  | cons a s ih =>
    rw [List.map_cons, List.sum_cons]
    have h0 : 0 ≤ (s.map fun c => c * c).sum := List.sum_nonneg fun y hy => by
      obtain ⟨z, _, rfl⟩ := List.mem_map.1 hy; exact mul_self_nonneg z
    rcases List.mem_cons.1 hx with rfl | h
    · omega
    · have := ih h; nlinarith [mul_self_nonneg a]

theorem normSq_nonneg (s : List ℤ) : 0 ≤ normSq s := List.sum_nonneg fun y hy => by
  obtain ⟨z, _, rfl⟩ := List.mem_map.1 hy; exact mul_self_nonneg z

theorem l2bound_small (k : ℕ) : l2bound[k]! ≤ 70265242 := by
  by_cases hk : k < 11
  · revert hk; revert k; decide
  · rw [List.getElem!_eq_getElem?_getD, List.getElem?_eq_none (by unfold l2bound; simp only [List.length_cons, List.length_nil]; omega)]; decide

theorem i16_range (x : ℕ) : IsInt16 (i16 x) := by
  unfold i16 IsInt16; split <;> constructor <;> omega

theorem centred_unique (x y : ℤ) (hx : -6144 ≤ x ∧ x ≤ 6144) (hy : -6144 ≤ y ∧ y ≤ 6144) (h : (x : ZMod 12289) = y) : x = y := by
  rw [ZMod.intCast_eq_intCast_iff_dvd_sub] at h
  obtain ⟨c, hc⟩ := h
  have : ((12289 : ℕ) : ℤ) = 12289 := by norm_cast
  rw [this] at hc
  omega

theorem cast_bmod (x : ℕ) : ((Int.bmod x 12289 : ℤ) : ZMod 12289) = x := by
  rw [show (x : ZMod 12289) = ((x : ℤ) : ZMod 12289) by norm_cast, ZMod.intCast_eq_intCast_iff]
  show Int.bmod x 12289 % 12289 = (x : ℤ) % 12289
  have : ((12289 : ℕ) : ℤ) = 12289 := by norm_cast
  have := Int.bmod_emod (x := (x : ℤ)) (m := 12289)
  simpa using this

theorem cast_centre (x : ℕ) (h : x < 12289) : ((centre x : ℤ) : ZMod 12289) = x := by rw [(centre_eq x h).1, cast_bmod]

theorem normSq_neg (s : List ℤ) : normSq (s.map fun x => -x) = normSq s := by
  unfold normSq
  rw [List.map_map]
  congr 1
  exact List.map_congr_left fun x _ => by simp

theorem get_toZ (a : List ℕ) (i : ℕ) (h : i < (NTT.toZ 12289 a).length) : (NTT.toZ 12289 a)[i] = ((a[i]! : ℕ) : ZMod 12289) := by
  unfold NTT.toZ at h ⊢
  rw [List.length_map] at h
  rw [List.getElem_map, getElem!_pos a i h]

/-- The core: for a canonical difference vector `d = p - c`, the norm of its centred version decides the Falcon relation. -/
theorem accepts_of_diff (n b : ℕ) (h c p d : List ℕ) (s2 : List ℤ) (hc : Poly n c) (hp : Poly n p) (hd : Poly n d)
    (hprod : NTT.toZ 12289 p = negMul n (zq s2) (NTT.toZ 12289 h))
    (hdiff : ∀ i < n, ((d[i]! : ℕ) : ZMod 12289) = (p[i]! : ℕ) - (c[i]! : ℕ)) :
    normSq ((List.range n).map fun u => centre d[u]!) + normSq s2 ≤ b ↔ Accepts n b h c s2 := by
  have hS : ∀ i (hi : i < n), ((List.range n).map fun u => centre d[u]!)[i]'(by simpa using hi) = centre d[i]! := fun i hi => by simp
  constructor
  · intro hb
    refine ⟨((List.range n).map fun u => centre d[u]!).map fun x => -x, by simp, ?_, ?_, by rwa [normSq_neg]⟩
    · intro x hx
      rw [List.map_map] at hx
      obtain ⟨i, _, rfl⟩ := List.mem_map.1 hx
      obtain ⟨_, h1, h2⟩ := centre_eq d[i]! (hd.canon i)
      simp only [Function.comp_apply]
      omega
    · rw [← hprod]
      apply List.ext_getElem (by unfold zq NTT.toZ; simp [hp.1, hc.1])
      intro i h1 h2
      have hi : i < n := by rw [length_toZ, hc.1] at h2; exact h2
      rw [List.getElem_zipWith, get_toZ, get_toZ]
      unfold zq
      rw [List.getElem_map, List.getElem_map, hS i hi]
      push_cast
      rw [cast_centre _ (hd.canon i), hdiff i hi]
      ring
  · rintro ⟨s1, l1, r1, e1, b1⟩
    have hs1 : s1 = ((List.range n).map fun u => centre d[u]!).map fun x => -x := by
      apply List.ext_getElem (by simp [l1])
      intro i h1 h2
      have hi : i < n := by omega
      rw [List.getElem_map, hS i hi]
      obtain ⟨_, c1, c2⟩ := centre_eq d[i]! (hd.canon i)
      refine centred_unique _ _ (r1 _ (List.getElem_mem h1)) (by omega) ?_
      push_cast
      rw [cast_centre _ (hd.canon i), hdiff i hi]
      rw [← hprod] at e1
      have e := congrArg (fun l => l[i]?) e1
      rw [List.getElem?_zipWith, List.getElem?_eq_getElem (by unfold zq; simp; omega), List.getElem?_eq_getElem (by rw [length_toZ, hp.1]; exact hi),
        List.getElem?_eq_getElem (by rw [length_toZ, hc.1]; exact hi)] at e
      have e' := Option.some.inj e
      rw [get_toZ, get_toZ] at e'
      have z : (zq s1)[i]'(by unfold zq; simp; omega) = ((s1[i] : ℤ) : ZMod 12289) := by unfold zq; rw [List.getElem_map]
      rw [z] at e'
      linear_combination e'
    rwa [hs1, normSq_neg] at b1

/-- **C77**: `verify_raw` decides the Falcon relation: for every hashed message and key of canonical residues and every signature vector of 16-bit integers, in every dimension up to 1024,
it accepts exactly when some `s1` with `s1 + s2*h = c` and centred coefficients makes the norm of `(s1, s2)` at most the bound. -/
theorem C77_verify_raw (k : ℕ) (hk : k ≤ 10) (h c0 : List ℕ) (s2 : List ℤ) (hh : Poly (2 ^ k) h) (hc : Poly (2 ^ k) c0) (hs : Vec16 (2 ^ k) s2) :
    verifyRaw k c0 s2 (toNttMonty k h) = true ↔ Accepts (2 ^ k) l2bound[k]! h c0 s2 := by
  unfold verifyRaw
  dsimp only
  have hV : ∀ d : List ℕ, Vec16 (2 ^ k) ((List.range (2 ^ k)).map fun u => centre d[u]!) := fun d =>
    ⟨by simp, fun x hx => by obtain ⟨i, _, rfl⟩ := List.mem_map.1 hx; exact i16_range _⟩
  rw [C77_is_short k _ _ (hV _) hs]
  by_cases hr : ∀ x ∈ s2, -12289 ≤ x ∧ x < 12289
  · obtain ⟨r1, r2, r3⟩ := reduceAll_ok k s2 hs.1 hr
    have hP := product_ok k hk (reduceAll k s2) h (poly_of r1 r2) hh
    obtain ⟨p1, p2, p3⟩ := hP
    rw [r1] at p1 p3
    rw [r3] at p3
    obtain ⟨d1, d2, d3⟩ := polySub_ok k _ c0 ((canon_iff _).2 p2) hc.canon
    exact accepts_of_diff (2 ^ k) _ h c0 _ _ s2 hc ⟨p1, p2⟩ (poly_of d1 d2) p3 d3
  · simp only [not_forall] at hr
    obtain ⟨x, hx, hlt⟩ := hr
    have h1 := sq_le_normSq s2 x hx
    have h2 : 151019521 ≤ x * x := by
      have : x ≤ -12289 ∨ 12289 ≤ x := by omega
      rcases this with h | h <;> nlinarith
    have hb := l2bound_small k
    refine ⟨fun g => absurd g ?_, fun g => absurd g ?_⟩
    · have := normSq_nonneg ((List.range (2 ^ k)).map fun u => centre (polySub k (mqINTT k (polyMontymul k (mqNTT k (reduceAll k s2)) (toNttMonty k h))) c0)[u]!)
      omega
    · rintro ⟨s1, _, _, _, b1⟩
      have := normSq_nonneg s1
      omega

/-- Beside C77: the hypotheses hold for a key and a hash in dimension 4, and such a verifier does accept. -/
example : Accepts 4 208714 [1, 0, 0, 0] [7, 12288, 0, 5] [3, 1, -1, 2] ∧ Poly (2 ^ 2) [1, 0, 0, 0] ∧ Poly (2 ^ 2) [7, 12288, 0, 5] ∧ Vec16 (2 ^ 2) [3, 1, -1, 2] :=
  ⟨⟨[4, -2, 1, 3], by decide +kernel⟩, by unfold Poly; decide, by unfold Poly; decide, by unfold Vec16 IsInt16; decide⟩

end Verif.CRef
