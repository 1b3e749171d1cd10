import Verif.Epervier.Lemmas

/-! # Key recovery in the contracts: C39, C64 -/

namespace Verif.Epervier

open Verif Verif.Packing Verif.NTT Verif.Ring Verif.Contract Verif.Falcon Verif.Hash

/-- `recover` returns the address `a`. -/
def RecoverReturns (hp : Bytes → Bytes → ℕ → Option (List ℕ)) (msgs salt : Bytes) (cs1 cs2 : List ℕ) (hint a : ℕ) : Prop :=
  ∃ fuel, recover hp msgs salt cs1 cs2 hint fuel = some (.ok a)

theorem cf_fw (a : List ℕ) (ha : a.length = 512) (i : ℕ) (hi : i < 512) : cf (fw512 a) i = value a i := by
  have := (C32_forward a ha).2 i hi
  rw [getD_eq_get!] at this
  exact this

theorem prod_fw (a : List ℕ) (ha : a.length = 512) : ∏ j ∈ Finset.range 512, cf (fw512 a) j = ∏ j ∈ Finset.range 512, value a j :=
  Finset.prod_congr rfl fun j hj => cf_fw a ha j (Finset.mem_range.1 hj)

theorem value_ev (a : List ℕ) (i : ℕ) : value a i = ev (root i) (toZ 12289 a) := by
  unfold value
  rw [← Polynomial.coe_aeval_eq_eval, aeval_toPoly]

theorem root_pow (i : ℕ) (hi : i < 512) : root i ^ 512 = -1 := C34_roots.1 i hi

/-- the difference vector of `recover` -/
def dvec (c s1 : List ℕ) : List ℕ := (List.range 512).map fun i => addmod c[i]! (subw qF s1[i]!) qF

theorem length_dvec (c s1 : List ℕ) : (dvec c s1).length = 512 := by unfold dvec; rw [List.length_map, List.length_range]

theorem toZ_dvec (c s1 : List ℕ) (hc : c.length = 512) (hs : s1.length = 512) (hlt : ∀ x ∈ s1, x < 65536) :
    toZ 12289 (dvec c s1) = List.zipWith (· - ·) (toZ 12289 c) (zq (s1.map wrapped)) := by
  apply List.ext_getElem
  · rw [length_toZ, length_dvec, List.length_zipWith, length_toZ, hc, length_zq, List.length_map, hs]; rfl
  · intro i h1 h2
    rw [length_toZ, length_dvec] at h1
    rw [List.getElem_zipWith]
    simp only [NTT.toZ, zq, dvec, List.getElem_map, List.getElem_range]
    rw [cast_wrap _ _ (get_lt s1 _ (by norm_num) hlt i), getElem!_pos c i (by omega), getElem!_pos s1 i (by omega)]

/-- Two 512-word vectors agree modulo 12289 when their values at the 512 points agree. -/
theorem toZ_ext (a b : List (ZMod 12289)) (ha : a.length = 512) (hb : b.length = 512) (h : ∀ i < 512, ev (root i) a = ev (root i) b) : a = b := by
  have key : ∀ l : List (ZMod 12289), l.length = 512 → ∃ l' : List ℕ, l'.length = 512 ∧ (∀ x ∈ l', x < 12289) ∧ toZ 12289 l' = l := by
    intro l hl
    refine ⟨l.map ZMod.val, by rw [List.length_map, hl], ?_, ?_⟩
    · intro x hx
      obtain ⟨y, _, rfl⟩ := List.mem_map.1 hx
      exact ZMod.val_lt y
    · unfold NTT.toZ
      rw [List.map_map]
      conv_rhs => rw [← List.map_id l]
      exact List.map_congr_left fun x _ => ZMod.natCast_zmod_val x
  obtain ⟨a', a1, a2, rfl⟩ := key a ha
  obtain ⟨b', b1, b2, rfl⟩ := key b hb
  have : fw512 a' = fw512 b' := by
    apply list_eq_of_res (q := 12289) _ _ (by rw [(poly512_fw a' a1).1, (poly512_fw b' b1).1])
    · intro x hx; exact get_lt_of_mem (poly512_fw a' a1).1 (poly512_fw a' a1).2 x (by rw [(poly512_fw a' a1).1] at hx; exact hx)
    · intro x hx; exact get_lt_of_mem (poly512_fw b' b1).1 (poly512_fw b' b1).2 x (by rw [(poly512_fw a' a1).1] at hx; exact hx)
    · intro x hx
      rw [(poly512_fw a' a1).1] at hx
      rw [res_fw a' a1 x hx, res_fw b' b1 x hx, h x hx]
  rw [← C32_round_trip a' ⟨a1, a2⟩, ← C32_round_trip b' ⟨b1, b2⟩, this]

/-- The vector that `recover` hashes is the transform of the unique solution `h` of `h*s2 = c - s1`. -/
theorem recovered_iff (c s1 s2 t : List ℕ) (hint : ℕ) (hc : c.length = 512) (h1 : s1.length = 512) (h2 : s2.length = 512) (hlt : ∀ x ∈ s1, x < 65536)
    (hh : (hint : ZMod 12289) * ∏ j ∈ Finset.range 512, value s2 j = 1) :
    t = vecMul qF 512 (fw512 (dvec c s1)) (inverses 512 (fw512 s2) hint) ↔
      ∃ h, Poly512 h ∧ Equation h s2 c (s1.map wrapped) ∧ IsTransform h t := by
  obtain ⟨_, hi⟩ := inverses_spec 511 (fw512 s2) hint
  rw [show 511 + 1 = 512 by norm_num] at hi
  rw [prod_fw s2 h2, hh] at hi
  have hinv : ∀ i < 512, value s2 i * cf (inverses 512 (fw512 s2) hint) i = 1 := fun i hi' => by rw [← cf_fw s2 h2 i hi']; exact hi i (by omega)
  generalize inverses 512 (fw512 s2) hint = inv at hinv
  have hd : ∀ i < 512, cf (vecMul qF 512 (fw512 (dvec c s1)) inv) i = value (dvec c s1) i * cf inv i := by
    intro i hi'
    unfold cf
    rw [getElem!_vecMul _ _ _ _ _ hi', cast_mulmod, ← cf_fw _ (length_dvec c s1) i hi']
    rfl
  have hvp := vecMul_poly512 (fw512 (dvec c s1)) inv
  generalize vecMul qF 512 (fw512 (dvec c s1)) inv = v at hd hvp
  have eqv : ∀ h : List ℕ, h.length = 512 → (Equation h s2 c (s1.map wrapped) ↔ ∀ i < 512, value h i * value s2 i = value (dvec c s1) i) := by
    intro h hl
    unfold Equation
    rw [← toZ_dvec c s1 hc h1 hlt]
    have lh : (toZ 12289 h).length = 512 := by rw [length_toZ]; exact hl
    have l2 : (toZ 12289 s2).length = 512 := by rw [length_toZ]; exact h2
    have e : ∀ i < 512, ev (root i) (negMul 512 (toZ 12289 h) (toZ 12289 s2)) = value h i * value s2 i := by
      intro i hi'
      rw [ev_negMul _ 512 (root_pow i hi') _ _ lh l2, value_ev, value_ev]
    constructor
    · intro q i hi'
      rw [← e i hi', q, value_ev]
    · intro q
      apply toZ_ext _ _ (length_negMul ..) (by rw [length_toZ, length_dvec])
      intro i hi'
      rw [e i hi', q i hi', value_ev]
  constructor
  · rintro rfl
    refine ⟨inv512 t, C32_inverse_reduced t hvp, ?_, ?_⟩
    · rw [eqv _ (C32_inverse_reduced t hvp).1]
      intro i hi'
      have : value (inv512 t) i = cf t i := by
        rw [← cf_fw _ (C32_inverse_reduced t hvp).1 i hi', C32_forward_inverse t hvp]
      rw [this, hd i hi']
      linear_combination (value (dvec c s1) i) * hinv i hi'
    · have := C32_forward (inv512 t) (C32_inverse_reduced t hvp).1
      rwa [C32_forward_inverse t hvp] at this
  · rintro ⟨h, hp, he, ht⟩
    rw [eqv h hp.1] at he
    apply list_eq_of_res (q := 12289) _ _ (by rw [ht.1.1, hvp.1])
    · intro x hx; exact get_lt_of_mem ht.1.1 ht.1.2 x (by rw [ht.1.1] at hx; exact hx)
    · intro x hx; exact get_lt_of_mem hvp.1 hvp.2 x (by rw [ht.1.1] at hx; exact hx)
    · intro x hx
      rw [ht.1.1] at hx
      have e1 : res 12289 t x = value h x := by
        unfold res
        rw [← getD_eq_get!]
        exact ht.2 x hx
      have e2 : res 12289 v x = cf v x := rfl
      rw [e1, e2, hd x hx]
      linear_combination (cf inv x) * he x hx - (value h x) * hinv x hx

theorem recover_eq (hp : Bytes → Bytes → ℕ → Option (List ℕ)) (msgs salt : Bytes) (cs1 cs2 : List ℕ) (hint fuel : ℕ) (g1 : salt.length = 40) (g2 : cs1.length = 32)
    (g3 : cs2.length = 32) :
    recover hp msgs salt cs1 cs2 hint fuel =
      if pairLoop (fun off => (fields cs1)[(off - 32) / 32]!) (fun off => (fields cs2)[(off - 32) / 32]!) 512 32 0 > sigBound then some (.error (.revert "norm too large"))
      else match hp salt msgs fuel with
        | none => none
        | some hashed =>
          if hintSum 512 (fw512 (fields cs2)) (inverses 512 (fw512 (fields cs2)) hint) ≠ 0 then some (.error (.revert "wrong hint"))
          else some (.ok (address (vecMul qF 512 (fw512 (dvec hashed (fields cs1))) (inverses 512 (fw512 (fields cs2)) hint)))) := by
  unfold recover
  rw [if_neg (by simpa using g1), if_neg (by simpa using g2), if_neg (by simpa using g3), fields_eq cs1 g2, fields_eq cs2 g3]
  rfl

/-- **C39**: `recover` returns `a` exactly when the three lengths are right, the first 511 coefficients of `s1` and `s2` are short, the hint is the inverse of the product of the values of `s2`
at the 512 points, the message hashes to some `c`, and `a` is the address of the transform of an `h` with `h * s2 = c - s1` (where a field of `s1` above 12289 counts as itself less `2^256`). -/
theorem C39_recover_iff (hp : Bytes → Bytes → ℕ → Option (List ℕ)) (msgs salt : Bytes) (hlen : ∀ fuel c, hp salt msgs fuel = some c → c.length = 512)
    (cs1 cs2 : List ℕ) (hint a : ℕ) :
    RecoverReturns hp msgs salt cs1 cs2 hint a ↔
      salt.length = 40 ∧ cs1.length = 32 ∧ cs2.length = 32 ∧
      normSq (((fields cs1).take 511).map signed) + normSq (((fields cs2).take 511).map signed) ≤ 34034726 ∧
      (hint : ZMod 12289) * ∏ j ∈ Finset.range 512, value (fields cs2) j = 1 ∧
      ∃ c h t, (∃ fuel, hp salt msgs fuel = some c) ∧ Poly512 h ∧ Equation h (fields cs2) c ((fields cs1).map wrapped) ∧ IsTransform h t ∧ a = address t := by
  have l1 := length_fields cs1
  have l2 := length_fields cs2
  have b1 := fields_lt cs1
  have b2 := fields_lt cs2
  have hn := pairNorm (fields cs1) (fields cs2) l1 l2 b1 b2
  have hz := hintSum_zero (fw512 (fields cs2)) hint
  rw [prod_fw _ l2] at hz
  have hrec := fun c t (hc : c.length = 512) hh => recovered_iff c (fields cs1) (fields cs2) t hint hc l1 l2 b1 hh
  unfold RecoverReturns
  by_cases g1 : salt.length = 40
  swap
  · constructor
    · rintro ⟨fuel, h⟩; unfold recover at h; rw [if_pos (by simpa using g1)] at h; cases h
    · rintro ⟨h, _⟩; exact absurd h g1
  by_cases g2 : cs1.length = 32
  swap
  · constructor
    · rintro ⟨fuel, h⟩; unfold recover at h; rw [if_neg (by simpa using g1), if_pos (by simpa using g2)] at h; cases h
    · rintro ⟨_, h, _⟩; exact absurd h g2
  by_cases g3 : cs2.length = 32
  swap
  · constructor
    · rintro ⟨fuel, h⟩; unfold recover at h; rw [if_neg (by simpa using g1), if_neg (by simpa using g2), if_pos (by simpa using g3)] at h; cases h
    · rintro ⟨_, _, h, _⟩; exact absurd h g3
  simp only [recover_eq hp msgs salt cs1 cs2 hint _ g1 g2 g3]
  generalize fields cs1 = s1 at *
  generalize fields cs2 = s2 at *
  generalize hpl : pairLoop (fun off => s1[(off - 32) / 32]!) (fun off => s2[(off - 32) / 32]!) 512 32 0 = norm at *
  generalize hps : hintSum 512 (fw512 s2) (inverses 512 (fw512 s2) hint) = hs at *
  have hbound : (norm > sigBound) ↔ ¬ (normSq ((s1.take 511).map signed) + normSq ((s2.take 511).map signed) ≤ 34034726) := by
    rw [← hn]; unfold sigBound; omega
  constructor
  · rintro ⟨fuel, h⟩
    split at h
    · cases h
    · rename_i hnb
      rw [hbound, not_not] at hnb
      split at h
      · cases h
      · rename_i c hc
        split at h
        · cases h
        · rename_i hs0
          have hh := hz.1 (not_not.1 hs0)
          simp only [Option.some.injEq, Except.ok.injEq] at h
          obtain ⟨hh', x1, x2, x3⟩ := (hrec c _ (hlen fuel c hc) hh).1 rfl
          exact ⟨g1, g2, g3, hnb, hh, c, hh', _, ⟨fuel, hc⟩, x1, x2, x3, h.symm⟩
  · rintro ⟨_, _, _, hnb, hh, c, h, t, ⟨fuel, hc⟩, x1, x2, x3, rfl⟩
    refine ⟨fuel, ?_⟩
    rw [if_neg (by rw [hbound, not_not]; exact hnb), hc]
    dsimp only
    rw [if_neg (not_not.2 (hz.2 hh)), ← (hrec c t (hlen fuel c hc) hh).2 ⟨h, x1, x2, x3⟩]

/-- The recovered polynomial is determined by the signature and the hash. -/
theorem C39_unique (s2 c : List ℕ) (s1 : List ℤ) (hint : ℕ) (h2 : s2.length = 512) (hh : (hint : ZMod 12289) * ∏ j ∈ Finset.range 512, value s2 j = 1) (h h' : List ℕ)
    (p : Poly512 h) (p' : Poly512 h') (e : Equation h s2 c s1) (e' : Equation h' s2 c s1) : h = h' := by
  unfold Equation at e e'
  have l2 : (NTT.toZ 12289 s2).length = 512 := by rw [length_toZ]; exact h2
  have hv : ∀ i < 512, value s2 i ≠ 0 := by
    intro i hi h0
    rw [Finset.prod_eq_zero (Finset.mem_range.2 hi) h0, mul_zero] at hh
    exact zero_ne_one hh
  have : NTT.toZ 12289 h = NTT.toZ 12289 h' := by
    apply toZ_ext _ _ (by rw [length_toZ, p.1]) (by rw [length_toZ, p'.1])
    intro i hi
    have e3 : ev (root i) (negMul 512 (NTT.toZ 12289 h) (NTT.toZ 12289 s2)) = ev (root i) (negMul 512 (NTT.toZ 12289 h') (NTT.toZ 12289 s2)) := by rw [e, e']
    rw [ev_negMul _ 512 (root_pow i hi) _ _ (by rw [length_toZ, p.1]) l2, ev_negMul _ 512 (root_pow i hi) _ _ (by rw [length_toZ, p'.1]) l2, ← value_ev s2] at e3
    exact mul_right_cancel₀ (hv i hi) e3
  apply list_eq_of_res (q := 12289) _ _ (by rw [p.1, p'.1])
  · intro x hx; exact get_lt_of_mem p.1 p.2 x (by rw [p.1] at hx; exact hx)
  · intro x hx; exact get_lt_of_mem p'.1 p'.2 x (by rw [p.1] at hx; exact hx)
  · intro x hx
    have g : (NTT.toZ 12289 h)[x]? = (NTT.toZ 12289 h')[x]? := by rw [this]
    unfold NTT.toZ at g
    rw [List.getElem?_map, List.getElem?_map, List.getElem?_eq_getElem hx, List.getElem?_eq_getElem (by rw [p'.1]; rw [p.1] at hx; exact hx)] at g
    simp only [Option.map_some, Option.some.injEq] at g
    unfold res
    rw [getElem!_pos h x hx, getElem!_pos h' x (by rw [p'.1]; rw [p.1] at hx; exact hx)]
    exact g

/-- **C39** (ethepervier): when no field of `s1` exceeds 12289, every returned address is that of the transform of an `h` with `h * s2 = c - s1`, `c` the Keccak hash of the message, and the
hint was the inverse of the product of the values of `s2`. -/
theorem C39_evm (H : Bytes → Bytes) (hH : ∀ x, (H x).length = 32) (hb : ∀ x, IsBytes (H x)) (msgs salt : Bytes) (cs1 cs2 : List ℕ) (hint a : ℕ)
    (hr : ∀ x ∈ fields cs1, x ≤ 12289) (h : RecoverReturns (Hash.Sol.hashToPointEVM H) msgs salt cs1 cs2 hint a) :
    (hint : ZMod 12289) * ∏ j ∈ Finset.range 512, value (fields cs2) j = 1 ∧
    ∃ c h t, EvmReturns H salt msgs c ∧ Poly512 h ∧ Equation h (fields cs2) c (List.map (fun x : ℕ => (x : ℤ)) (fields cs1)) ∧ IsTransform h t ∧ a = address t := by
  obtain ⟨_, _, _, _, h5, c, h, t, h6, h7, h8, h9⟩ := (C39_recover_iff _ msgs salt (fun fuel c hc => (C24_evm_shape H hH hb salt msgs c ⟨fuel, hc⟩).1) cs1 cs2 hint a).1 h
  refine ⟨h5, c, h, t, h6, h7, ?_, h9⟩
  rwa [show (fields cs1).map wrapped = List.map (fun x : ℕ => (x : ℤ)) (fields cs1) from List.map_congr_left fun x hx => by
    unfold wrapped; rw [if_neg (by have := hr x hx; omega)]] at h8

/-- **C39** (epervier): the same with SHAKE256. -/
theorem C39_nist (msgs salt : Bytes) (hm : IsBytes msgs) (hs : IsBytes salt) (cs1 cs2 : List ℕ) (hint a : ℕ)
    (hr : ∀ x ∈ fields cs1, x ≤ 12289) (h : RecoverReturns Hash.Sol.hashToPointNIST msgs salt cs1 cs2 hint a) :
    (hint : ZMod 12289) * ∏ j ∈ Finset.range 512, value (fields cs2) j = 1 ∧
    ∃ c h t, NistReturns salt msgs c ∧ Poly512 h ∧ Equation h (fields cs2) c (List.map (fun x : ℕ => (x : ℤ)) (fields cs1)) ∧ IsTransform h t ∧ a = address t := by
  obtain ⟨_, _, _, _, h5, c, h, t, h6, h7, h8, h9⟩ := (C39_recover_iff _ msgs salt (fun fuel c hc => (C24_nist_shape salt msgs hs hm c ⟨fuel, hc⟩).1) cs1 cs2 hint a).1 h
  refine ⟨h5, c, h, t, h6, h7, ?_, h9⟩
  rwa [show (fields cs1).map wrapped = List.map (fun x : ℕ => (x : ℤ)) (fields cs1) from List.map_congr_left fun x hx => by
    unfold wrapped; rw [if_neg (by have := hr x hx; omega)]] at h8

theorem two_pow_256 : ((2 ^ 256 : ℤ) : ZMod 12289) ≠ 0 := by
  rw [Ne, ZMod.intCast_zmod_eq_zero_iff_dvd]
  norm_num

/-- **C39 fails for fields above 12289**: the polynomial whose address is returned satisfies `h * s2 = c - s1` exactly when no field of `s1` exceeds 12289. -/
theorem C39_wraps_iff (c s1 s2 h : List ℕ) (hc : c.length = 512) (h1 : s1.length = 512) (he : Equation h s2 c (s1.map wrapped)) :
    Equation h s2 c (List.map (fun x : ℕ => (x : ℤ)) s1) ↔ ∀ x ∈ s1, x ≤ 12289 := by
  unfold Equation at he ⊢
  rw [he]
  constructor
  · intro e x hx
    by_contra hgt
    obtain ⟨i, hi, rfl⟩ := List.mem_iff_getElem.1 hx
    have g : (List.zipWith (· - ·) (NTT.toZ 12289 c) (zq (s1.map wrapped)))[i]? = (List.zipWith (· - ·) (NTT.toZ 12289 c) (zq (List.map (fun x : ℕ => (x : ℤ)) s1)))[i]? := by rw [e]
    rw [List.getElem?_eq_getElem (by rw [List.length_zipWith, length_zq, length_toZ, List.length_map, hc, h1]; omega),
      List.getElem?_eq_getElem (by rw [List.length_zipWith, length_zq, length_toZ, List.length_map, hc, h1]; omega), Option.some.injEq, List.getElem_zipWith, List.getElem_zipWith] at g
    simp only [zq, List.getElem_map] at g
    rw [sub_right_inj] at g
    unfold wrapped at g
    rw [if_pos (by omega), Int.cast_sub, sub_eq_self] at g
    exact two_pow_256 g
  · intro hle
    rw [show s1.map wrapped = List.map (fun x : ℕ => (x : ℤ)) s1 from List.map_congr_left fun x hx => by
      unfold wrapped; rw [if_neg (by have := hle x hx; omega)]]

/-! ### A concrete family of accepted calls: `s2 = 1`, `s1 = v * x^i`, hint 1 -/

/-- the constant polynomial 1 -/
def onePoly : List ℕ := 1 :: List.replicate 511 0
/-- `v * x^i` -/
def mono (v i : ℕ) : List ℕ := (List.replicate 512 0).set i v
/-- packed -/
def pack (a : List ℕ) : List ℕ := solCompact (asMem a (fun _ => 0))

theorem mem_mono (v i x : ℕ) (h : x ∈ mono v i) : x = 0 ∨ x = v := by
  unfold mono at h
  rcases List.mem_or_eq_of_mem_set h with h | h
  · exact Or.inl (List.eq_of_mem_replicate h)
  · exact Or.inr h

theorem length_mono (v i : ℕ) : (mono v i).length = 512 := by unfold mono; rw [List.length_set, List.length_replicate]

theorem onePoly_eq : onePoly = mono 1 0 := by
  have : ∀ m : ℕ, (List.replicate (m + 1) 0).set 0 1 = 1 :: List.replicate m 0 := fun m => rfl
  unfold onePoly mono
  exact (this 511).symm

theorem mem_mono_self (v i : ℕ) (hi : i < 512) : v ∈ mono v i := by
  have : ∀ l : List ℕ, i < l.length → v ∈ l.set i v := by
    intro l hl
    have h := List.getElem_mem (l := l.set i v) (n := i) (by rw [List.length_set]; exact hl)
    rwa [List.getElem_set_self] at h
  unfold mono
  exact this _ (by rw [List.length_replicate]; exact hi)

theorem value_one (i : ℕ) : value onePoly i = 1 := by
  rw [value_ev]
  unfold onePoly NTT.toZ
  rw [List.map_cons, List.map_replicate, Nat.cast_one, Nat.cast_zero]
  rw [ev_const, map_one]

theorem normSq_mono (v i k : ℕ) (hi : i < 512) : normSq (((mono v i).take k).map signed) = if i < k then signed v * signed v else 0 := by
  have gen : ∀ (m i k : ℕ), i < m → normSq ((((List.replicate m 0).set i v).take k).map signed) = if i < k then signed v * signed v else 0 := by
    intro m
    induction m with
    | zero => intro i k h; omega
    | succ m ih =>
      have hz : ∀ m k : ℕ, normSq (((List.replicate m 0).take k).map signed) = 0 := by
        intro m k
        apply normSq_zeros
        intro x hx
        obtain ⟨y, hy, rfl⟩ := List.mem_map.1 hx
        rw [List.eq_of_mem_replicate (List.mem_of_mem_take hy)]
        rfl
      intro i k h
      cases k with
      | zero => simp [normSq]
      | succ k =>
        cases i with
        | zero =>
          have := hz m k
          rw [List.replicate_succ, List.set_cons_zero, List.take_succ_cons, List.map_cons, if_pos (by omega)]
          unfold normSq at this ⊢
          rw [List.map_cons, List.sum_cons, this, add_zero]
        | succ i =>
          have := ih i k (by omega)
          rw [List.replicate_succ, List.set_cons_succ, List.take_succ_cons, List.map_cons]
          unfold normSq at this ⊢
          rw [List.map_cons, List.sum_cons, this, show signed 0 = 0 from rfl, mul_zero, zero_add]
          split <;> rename_i h1
          · rw [if_pos (by omega)]
          · rw [if_neg (by omega)]
  exact gen 512 i k hi

/-- For every 40-byte salt, every message with a hash, every index and every value that is short (or at index 511) the contract returns an address. -/
theorem recover_mono (hp : Bytes → Bytes → ℕ → Option (List ℕ)) (msgs salt : Bytes) (hlen : ∀ fuel c, hp salt msgs fuel = some c → c.length = 512) (hs : salt.length = 40)
    (c : List ℕ) (fuel : ℕ) (hc : hp salt msgs fuel = some c) (v i : ℕ) (hv : v < 65536) (hi : i < 512) (hb : i = 511 ∨ signed v * signed v ≤ 34034725) :
    ∃ a h t, RecoverReturns hp msgs salt (pack (mono v i)) (pack onePoly) 1 a ∧ Poly512 h ∧ Equation h onePoly c ((mono v i).map wrapped) ∧ IsTransform h t ∧ a = address t := by
  have lo : onePoly.length = 512 := by unfold onePoly; rw [List.length_cons, List.length_replicate]
  obtain ⟨a1, _, a3⟩ := fields_solCompact (mono v i) (length_mono v i) (fun x hx => by rcases mem_mono v i x hx with rfl | rfl <;> omega)
  obtain ⟨b1, _, b3⟩ := fields_solCompact onePoly lo (fun x hx => by
    unfold onePoly at hx
    rcases List.mem_cons.1 hx with rfl | h
    · norm_num
    · rw [List.eq_of_mem_replicate h]; norm_num)
  have hprod : ((1 : ℕ) : ZMod 12289) * ∏ j ∈ Finset.range 512, value onePoly j = 1 := by
    rw [Finset.prod_eq_one fun j _ => value_one j]; simp
  obtain ⟨h, x1, x2, x3⟩ := (recovered_iff c (mono v i) onePoly _ 1 (hlen fuel c hc) (length_mono v i) lo (fun x hx => by rcases mem_mono v i x hx with rfl | rfl <;> omega) hprod).1 rfl
  refine ⟨_, h, _, (C39_recover_iff hp msgs salt hlen _ _ 1 _).2 ⟨hs, a1, b1, ?_, ?_, c, h, _, ⟨fuel, hc⟩, x1, ?_, x3, rfl⟩, x1, x2, x3, rfl⟩
  · unfold pack
    rw [a3, b3, normSq_mono v i 511 hi]
    have e1 : normSq ((onePoly.take 511).map signed) = 1 := by
      rw [onePoly_eq, normSq_mono 1 0 511 (by norm_num), if_pos (by norm_num)]; rfl
    rw [e1]
    split
    · rcases hb with rfl | hb
      · omega
      · linarith
    · norm_num
  · unfold pack; rw [b3]; exact hprod
  · unfold pack; rw [a3, b3]; exact x2

/-- **C39 is false for large fields**: for every message there is an accepted call (`s2 = 1`, first field of `s1` equal to 12290, which counts as 1 in the norm) whose address is that of
a polynomial `h` with `h * s2 ≠ c - s1`, and no other `h` satisfies what the contract solved. -/
theorem C39_false (hp : Bytes → Bytes → ℕ → Option (List ℕ)) (msgs salt : Bytes) (hlen : ∀ fuel c, hp salt msgs fuel = some c → c.length = 512) (hs : salt.length = 40)
    (c : List ℕ) (fuel : ℕ) (hc : hp salt msgs fuel = some c) :
    ∃ a h t, RecoverReturns hp msgs salt (pack (mono 12290 0)) (pack onePoly) 1 a ∧ Poly512 h ∧ IsTransform h t ∧ a = address t ∧
      ¬ Equation h onePoly c (List.map (fun x : ℕ => (x : ℤ)) (mono 12290 0)) := by
  obtain ⟨a, h, t, h1, h2, h3, h4, h5⟩ := recover_mono hp msgs salt hlen hs c fuel hc 12290 0 (by norm_num) (by norm_num) (Or.inr (by decide))
  refine ⟨a, h, t, h1, h2, h4, h5, ?_⟩
  rw [C39_wraps_iff c _ _ h (hlen fuel c hc) (length_mono _ _) h3]
  intro hle
  have := hle 12290 (mem_mono_self 12290 0 (by norm_num))
  omega

/-- **The norm bound is not enforced on chain**: for every message there is an accepted call whose `s1` alone has squared norm `6144^2`, above the bound. -/
theorem C39_norm_not_enforced (hp : Bytes → Bytes → ℕ → Option (List ℕ)) (msgs salt : Bytes) (hlen : ∀ fuel c, hp salt msgs fuel = some c → c.length = 512) (hs : salt.length = 40)
    (c : List ℕ) (fuel : ℕ) (hc : hp salt msgs fuel = some c) :
    ∃ cs1 a, RecoverReturns hp msgs salt cs1 (pack onePoly) 1 a ∧ 34034726 < normSq ((fields cs1).map signed) := by
  obtain ⟨a, h, t, h1, _⟩ := recover_mono hp msgs salt hlen hs c fuel hc 6144 511 (by norm_num) (by norm_num) (Or.inl rfl)
  refine ⟨_, a, h1, ?_⟩
  unfold pack
  rw [(fields_solCompact (mono 6144 511) (length_mono _ _) (fun x hx => by rcases mem_mono _ _ x hx with rfl | rfl <;> omega)).2.2]
  have := normSq_mono 6144 511 512 (by norm_num)
  rw [List.take_of_length_le (by rw [length_mono])] at this
  rw [this, if_pos (by norm_num)]
  decide

/-- Non-vacuity of the hypotheses of `C39_evm` (for every message with a hash). -/
theorem C39_evm_nonvacuous (H : Bytes → Bytes) (hH : ∀ x, (H x).length = 32) (hb : ∀ x, IsBytes (H x)) (msgs salt : Bytes) (hs : salt.length = 40) (c : List ℕ)
    (hc : EvmReturns H salt msgs c) : ∃ a, RecoverReturns (Hash.Sol.hashToPointEVM H) msgs salt (pack (mono 5 3)) (pack onePoly) 1 a ∧ ∀ x ∈ fields (pack (mono 5 3)), x ≤ 12289 := by
  obtain ⟨fuel, hc⟩ := hc
  obtain ⟨a, h, t, h1, _⟩ := recover_mono _ msgs salt (fun fuel c hc => (C24_evm_shape H hH hb salt msgs c ⟨fuel, hc⟩).1) hs c fuel hc 5 3 (by norm_num) (by norm_num) (Or.inr (by decide))
  refine ⟨a, h1, ?_⟩
  unfold pack
  rw [(fields_solCompact (mono 5 3) (length_mono _ _) (fun x hx => by rcases mem_mono _ _ x hx with rfl | rfl <;> omega)).2.2]
  intro x hx
  rcases mem_mono _ _ x hx with rfl | rfl <;> omega

example : ∃ a, RecoverReturns (Hash.Sol.hashToPointEVM fun _ => List.replicate 32 1) [6] (List.replicate 40 5) (pack (mono 5 3)) (pack onePoly) 1 a := by
  have hc : EvmReturns (fun _ => List.replicate 32 1) (List.replicate 40 5) [6] (List.replicate 512 257) := ⟨33, by decide +kernel⟩
  obtain ⟨a, h, _⟩ := C39_evm_nonvacuous (fun _ => List.replicate 32 1) (fun _ => by simp) (fun _ x hx => by rw [List.eq_of_mem_replicate hx]; norm_num) [6] (List.replicate 40 5) (by simp) _ hc
  exact ⟨a, h⟩

/-! ## C64: malleability of recovery signatures -/

/-- **C64 is false (hint)**: the hint matters only modulo 12289: replacing it by any congruent word leaves every answer unchanged. -/
theorem C64_hint_malleable (hp : Bytes → Bytes → ℕ → Option (List ℕ)) (msgs salt : Bytes) (hlen : ∀ fuel c, hp salt msgs fuel = some c → c.length = 512) (cs1 cs2 : List ℕ) (hint hint' a : ℕ)
    (h : hint % 12289 = hint' % 12289) : RecoverReturns hp msgs salt cs1 cs2 hint a ↔ RecoverReturns hp msgs salt cs1 cs2 hint' a := by
  rw [C39_recover_iff hp msgs salt hlen, C39_recover_iff hp msgs salt hlen, show ((hint : ℕ) : ZMod 12289) = (hint' : ℕ) from (ZMod.natCast_eq_natCast_iff _ _ _).2 h]

theorem normSq_congr (f g : ℕ → ℤ) : ∀ (a b : List ℕ), List.Forall₂ (fun x y => f x * f x = g y * g y) a b → normSq (a.map f) = normSq (b.map g) := by
  intro a b h
  unfold normSq
  induction h with
  | nil => rfl
  | cons h1 _ ih =>
    simp only [List.map_cons, List.sum_cons] at ih ⊢
    rw [h1, ih]

/-- **C64 is false (fields of s2)**: adding 12289 to any fields of `s2` that hold values up to 6144 leaves every answer unchanged. -/
theorem C64_s2_malleable (hp : Bytes → Bytes → ℕ → Option (List ℕ)) (msgs salt : Bytes) (hlen : ∀ fuel c, hp salt msgs fuel = some c → c.length = 512) (cs1 cs2 cs2' : List ℕ) (hint a : ℕ)
    (hl : cs2.length = cs2'.length) (h : List.Forall₂ (fun x y => y = x ∨ (x ≤ 6144 ∧ y = x + 12289)) (fields cs2) (fields cs2')) :
    RecoverReturns hp msgs salt cs1 cs2 hint a ↔ RecoverReturns hp msgs salt cs1 cs2' hint a := by
  have e1 : NTT.toZ 12289 (fields cs2) = NTT.toZ 12289 (fields cs2') := by
    generalize fields cs2 = f at *
    generalize fields cs2' = f' at *
    unfold NTT.toZ
    induction h with
    | nil => rfl
    | cons h1 _ ih =>
      rw [List.map_cons, List.map_cons, ih]
      rcases h1 with rfl | ⟨_, rfl⟩
      · rfl
      · rw [Nat.cast_add, show ((12289 : ℕ) : ZMod 12289) = 0 from ZMod.natCast_self _, add_zero]
  have e2 : normSq (((fields cs2).take 511).map signed) = normSq (((fields cs2').take 511).map signed) := by
    apply normSq_congr
    refine List.forall₂_take 511 (List.Forall₂.imp ?_ h)
    intro x y hxy
    rcases hxy with rfl | ⟨h1, rfl⟩
    · rfl
    · unfold signed; rw [if_neg (by omega), if_pos (by omega)]; push_cast; ring
  have e3 : ∀ j, value (fields cs2) j = value (fields cs2') j := fun j => by unfold value; rw [e1]
  rw [C39_recover_iff hp msgs salt hlen, C39_recover_iff hp msgs salt hlen, hl, e2, Finset.prod_congr rfl fun j _ => e3 j]
  unfold Equation
  rw [e1]

/-- **C64 is false (fields of s1)**: a zero field of `s1` may be written as 12289. -/
theorem C64_s1_malleable (hp : Bytes → Bytes → ℕ → Option (List ℕ)) (msgs salt : Bytes) (hlen : ∀ fuel c, hp salt msgs fuel = some c → c.length = 512) (cs1 cs1' cs2 : List ℕ) (hint a : ℕ)
    (hl : cs1.length = cs1'.length) (h : List.Forall₂ (fun x y => y = x ∨ (x = 0 ∧ y = 12289)) (fields cs1) (fields cs1')) :
    RecoverReturns hp msgs salt cs1 cs2 hint a ↔ RecoverReturns hp msgs salt cs1' cs2 hint a := by
  have e1 : zq ((fields cs1).map wrapped) = zq ((fields cs1').map wrapped) := by
    generalize fields cs1 = f at *
    generalize fields cs1' = f' at *
    unfold zq
    induction h with
    | nil => rfl
    | cons h1 _ ih =>
      rw [List.map_cons, List.map_cons, List.map_cons, List.map_cons, ih]
      rcases h1 with rfl | ⟨rfl, rfl⟩
      · rfl
      · rw [show wrapped 0 = 0 from rfl, show wrapped 12289 = 12289 from rfl]
        rw [show ((12289 : ℤ) : ZMod 12289) = ((0 : ℤ) : ZMod 12289) from (ZMod.intCast_eq_intCast_iff _ _ _).2 (by decide)]
  have e2 : normSq (((fields cs1).take 511).map signed) = normSq (((fields cs1').take 511).map signed) := by
    apply normSq_congr
    refine List.forall₂_take 511 (List.Forall₂.imp ?_ h)
    intro x y hxy
    rcases hxy with rfl | ⟨rfl, rfl⟩
    · rfl
    · decide
  rw [C39_recover_iff hp msgs salt hlen, C39_recover_iff hp msgs salt hlen, hl, e2]
  unfold Equation
  rw [e1]

/-- **C64 is false**: beside every accepted call there is a different accepted one with the same message, salt and address (for instance another hint below `2^256`). -/
theorem C64_malleable (hp : Bytes → Bytes → ℕ → Option (List ℕ)) (msgs salt : Bytes) (hlen : ∀ fuel c, hp salt msgs fuel = some c → c.length = 512) (cs1 cs2 : List ℕ) (hint a : ℕ)
    (hw : hint < 2 ^ 256) (h : RecoverReturns hp msgs salt cs1 cs2 hint a) : ∃ hint', hint' < 2 ^ 256 ∧ hint' ≠ hint ∧ RecoverReturns hp msgs salt cs1 cs2 hint' a := by
  by_cases hc : hint < 12289
  · exact ⟨hint + 12289, by have : 2 ^ 64 < 2 ^ 256 := Nat.pow_lt_pow_right (by norm_num) (by norm_num); omega, by omega, (C64_hint_malleable hp msgs salt hlen cs1 cs2 hint _ a (by omega)).1 h⟩
  · exact ⟨hint - 12289, by omega, by omega, (C64_hint_malleable hp msgs salt hlen cs1 cs2 hint _ a (by omega)).1 h⟩

end Verif.Epervier
