import Verif.NTT.Core
import Verif.Packing.Props
import Mathlib.GroupTheory.OrderOfElement
import Mathlib.Tactic.NormNum

/-! # C32-C34: the contracts' number theoretic transforms -/

namespace Verif.NTT

open Verif.Packing (W asMem solExpand solCompact)
open Verif.Ring Polynomial

/-! ## C34: the tables -/

/-- **C34**: the three copies of the forward table hold the same 512 residues, entry `k` being `49^brv(k)`. -/
theorem C34_forward_tables : ∀ k < 512, chunk fwWords k = 49 ^ brv9 k % 12289 ∧ psiRev[k]! = 49 ^ brv9 k % 12289 ∧
    deployPsiRev[k]! = 49 ^ brv9 k % 12289 := by decide +kernel

/-- **C34**: the three copies of the inverse table hold the inverses. -/
theorem C34_inverse_tables : ∀ k < 512, chunk fwWords k * chunk invWords k % 12289 = 1 ∧ psiInvRev[k]! = chunk invWords k ∧
    deployPsiInvRev[k]! = chunk invWords k ∧ chunk invWords k < 12289 := by decide +kernel

theorem C34_lengths : psiRev.length = 512 ∧ psiInvRev.length = 512 ∧ deployPsiRev.length = 512 ∧ deployPsiInvRev.length = 512 ∧
    fwWords.length = 32 ∧ invWords.length = 32 := by decide +kernel

theorem pow512 : (49 : ZMod 12289) ^ 512 = -1 := by
  have h : 49 ^ 512 % 12289 = 12288 := by decide +kernel
  have e : ((49 ^ 512 % 12289 : ℕ) : ZMod 12289) = ((12288 : ℕ) : ZMod 12289) := by rw [h]
  rw [ZMod.natCast_mod, Nat.cast_pow] at e
  rw [show (49 : ZMod 12289) = ((49 : ℕ) : ZMod 12289) by norm_cast, e]
  decide +kernel

/-- **C34**: 49 is a primitive 1024-th root of unity modulo 12289. -/
theorem C34_primitive : orderOf (49 : ZMod 12289) = 1024 := by
  have : Fact (Nat.Prime 2) := ⟨Nat.prime_two⟩
  have := orderOf_eq_prime_pow (x := (49 : ZMod 12289)) (p := 2) (n := 9) (by rw [show 2 ^ 9 = 512 by norm_num, pow512]; decide +kernel)
    (by rw [show 2 ^ (9 + 1) = 512 * 2 by norm_num, pow_mul, pow512]; norm_num)
  rw [this]; norm_num

theorem brv9_brv9 : ∀ x < 512, brv9 (brv9 x) = x ∧ brv9 x < 512 := by decide +kernel

/-- The 512 evaluation points are distinct roots of `x^512 = -1`, so they are all of them. -/
theorem C34_roots : (∀ x < 512, root x ^ 512 = -1) ∧ (∀ x < 512, ∀ y < 512, root x = root y → x = y) := by
  constructor
  · intro x _
    unfold root
    rw [← pow_mul, mul_comm, pow_mul, pow512, Odd.neg_one_pow ⟨brv9 x, rfl⟩]
  · intro x hx y hy h
    obtain ⟨hx1, hx2⟩ := brv9_brv9 x hx
    obtain ⟨hy1, hy2⟩ := brv9_brv9 y hy
    have := pow_injOn_Iio_orderOf (x := (49 : ZMod 12289)) (show 2 * brv9 x + 1 ∈ _ by rw [C34_primitive]; simp; omega)
      (show 2 * brv9 y + 1 ∈ _ by rw [C34_primitive]; simp; omega) h
    have : brv9 x = brv9 y := by simpa using this
    rw [← hx1, ← hy1, this]

/-! ## The tree law for the two tables -/

theorem cast_node (psi : ℕ → ℕ) (j : ℕ) (h : psi (j / 2) ≤ 12289) :
    node (fun i => (psi i : ZMod 12289)) j = ((if j % 2 = 0 then psi (j / 2) else 12289 - psi (j / 2) : ℕ) : ZMod 12289) := by
  unfold node
  split
  · rfl
  · rw [Nat.cast_sub h, show ((12289 : ℕ) : ZMod 12289) = 0 from ZMod.natCast_self _, zero_sub]

theorem law_of_tables (psi psi' : ℕ → ℕ) (k : ℕ) (hk : k ≤ 9) (h : ∀ j < 512, psi j = chunk fwWords j ∧ psi' j = chunk invWords j) :
    Law 12289 k psi psi' := by
  have hb : ∀ j < 512, chunk fwWords j ≤ 12289 := by decide +kernel
  have h2 : 2 ^ k ≤ 512 := by
    calc 2 ^ k ≤ 2 ^ 9 := Nat.pow_le_pow_right (by norm_num) hk
      _ = 512 := by norm_num
  refine ⟨?_, ?_, ?_⟩
  · rw [(h 0 (by norm_num)).1, show chunk fwWords 0 = 1 by decide +kernel, Nat.cast_one]
  · intro i _ hi
    rw [cast_node _ _ (by rw [(h _ (by omega)).1]; exact hb _ (by omega)), (h (i / 2) (by omega)).1, (h i (by omega)).1]
    have t : ∀ i < 512, 0 < i → chunk fwWords i ^ 2 % 12289 =
      (if i % 2 = 0 then chunk fwWords (i / 2) else 12289 - chunk fwWords (i / 2)) % 12289 := by decide +kernel
    rw [← Nat.cast_pow, ZMod.natCast_eq_natCast_iff]
    exact t i (by omega) (by assumption)
  · intro i _ hi
    rw [(h i (by omega)).1, (h i (by omega)).2, ← Nat.cast_mul, show (1 : ZMod 12289) = ((1 : ℕ) : ZMod 12289) by norm_cast,
      ZMod.natCast_eq_natCast_iff]
    exact (C34_inverse_tables i (by omega)).1

theorem law512 : Law 12289 9 (chunk fwWords) (chunk invWords) := law_of_tables _ _ 9 le_rfl fun _ _ => ⟨rfl, rfl⟩

theorem lawStateless (k : ℕ) (hk : k ≤ 9) : Law 12289 k (fun j => psiRev[j]!) (fun j => psiInvRev[j]!) :=
  law_of_tables _ _ k hk fun j hj =>
    ⟨(C34_forward_tables j hj).2.1.trans (C34_forward_tables j hj).1.symm, (C34_inverse_tables j hj).2.1⟩

theorem node_root (x : ℕ) (hx : x < 512) : node (fun i => (chunk fwWords i : ZMod 12289)) (512 + x) = root x := by
  have hb : ∀ j < 512, chunk fwWords j ≤ 12289 := by decide +kernel
  rw [cast_node _ _ (hb _ (by omega))]
  have t : ∀ x < 512, (if (512 + x) % 2 = 0 then chunk fwWords ((512 + x) / 2) else 12289 - chunk fwWords ((512 + x) / 2)) % 12289 =
    49 ^ (2 * brv9 x + 1) % 12289 := by decide +kernel
  unfold root
  rw [show (49 : ZMod 12289) = ((49 : ℕ) : ZMod 12289) by norm_cast, ← Nat.cast_pow, ZMod.natCast_eq_natCast_iff]
  exact t x hx

theorem qF_lt : (12289 : ℕ) < W := by unfold W; norm_num

theorem nm1_512 : ((2 ^ 9 : ℕ) : ZMod 12289) * (nm1F : ℕ) = 1 := by decide +kernel

/-! ## C32: forward and inverse transforms -/

theorem mem_lt_of_get {a : List ℕ} {n b : ℕ} (hl : a.length = n) (h : ∀ x < n, a[x]! < b) : ∀ v ∈ a, v < b := by
  intro v hv
  obtain ⟨i, hi, rfl⟩ := List.getElem_of_mem hv
  have := h i (by omega)
  rwa [getElem!_pos a i hi] at this

theorem get_lt_of_mem {a : List ℕ} {n b : ℕ} (hl : a.length = n) (h : ∀ v ∈ a, v < b) : ∀ x < n, a[x]! < b := by
  intro x hx
  rw [getElem!_pos a x (by omega)]
  exact h _ (List.getElem_mem _)

theorem getD_eq_get! (a : List ℕ) (x : ℕ) : a.getD x 0 = a[x]! := by
  rw [List.getD_eq_getElem?_getD, List.getElem!_eq_getElem?_getD]; rfl

theorem get!_map_mod (a : List ℕ) (q x : ℕ) : (a.map (· % q))[x]! = a[x]! % q := by
  rw [List.getElem!_eq_getElem?_getD, List.getElem!_eq_getElem?_getD, List.getElem?_map]
  cases a[x]? with
  | none => show 0 = 0 % q; simp
  | some v => rfl

theorem poly512_fw (a : List ℕ) (ha : a.length = 512) : Poly512 (fw512 a) := by
  obtain ⟨h1, h2, _⟩ := nttFw_spec (q := 12289) (chunk fwWords) (by norm_num) qF_lt 9 a ha
  exact ⟨h1, mem_lt_of_get h1 (h2 (by norm_num))⟩

theorem res_fw (a : List ℕ) (ha : a.length = 512) (x : ℕ) (hx : x < 512) : res 12289 (fw512 a) x = ev (root x) (toZ 12289 a) := by
  rw [← node_root x hx]
  exact law512.fw_eval (by norm_num) qF_lt a ha x hx

/-- **C32** (forward): for every array of 512 words the contract's forward transform returns the 512 values of the polynomial
at the roots of `x^512 + 1`, reduced. -/
theorem C32_forward (a : List ℕ) (ha : a.length = 512) : IsTransform a (fw512 a) := by
  refine ⟨poly512_fw a ha, fun x hx => ?_⟩
  have e := res_fw a ha x hx
  unfold res at e
  rw [getD_eq_get!, e, ← aeval_toPoly, coe_aeval_eq_eval]

/-- **C32** (round trip): the inverse transform undoes the forward transform, whatever the words: the result is the input reduced modulo 12289. -/
theorem C32_inverse_forward (a : List ℕ) (ha : a.length = 512) : inv512 (fw512 a) = a.map (· % 12289) := by
  have hp := poly512_fw a ha
  have hr : ∀ x < 512, (fw512 a)[x]! ≤ 12289 := fun x hx => (get_lt_of_mem hp.1 hp.2 x hx).le
  obtain ⟨g1, g2, _⟩ := nttInv_spec (q := 12289) (chunk invWords) (by norm_num) qF_lt nm1F 9 (fw512 a) hp.1 hr
  have h := law512.inv_fw (by norm_num) qF_lt nm1F nm1_512 (fw512 a) hp.1 hr (res 12289 a)
    (nttFw_spec (q := 12289) (chunk fwWords) (by norm_num) qF_lt 9 a ha).2.2
  have g1' : (inv512 (fw512 a)).length = 512 := g1
  have hm : ∀ x < 512, (a.map (· % 12289))[x]! = a[x]! % 12289 := by
    intro x hx
    rw [getElem!_pos _ x (by rw [List.length_map]; omega), getElem!_pos a x (by omega), List.getElem_map]
  apply list_eq_of_res (q := 12289) _ _ (by rw [g1', List.length_map, ha])
  · intro x hx; exact g2 x (by rw [g1'] at hx; omega)
  · intro x hx
    rw [g1'] at hx; rw [hm x hx]; exact Nat.mod_lt _ (by norm_num)
  · intro x hx
    rw [g1'] at hx
    refine (h x (by omega)).trans ?_
    unfold res
    rw [hm x hx, ZMod.natCast_mod]

/-- **C32** (round trip on residues). -/
theorem C32_round_trip (a : List ℕ) (ha : Poly512 a) : inv512 (fw512 a) = a := by
  rw [C32_inverse_forward a ha.1]
  conv_rhs => rw [← List.map_id a]
  exact List.map_congr_left fun x hx => Nat.mod_eq_of_lt (ha.2 x hx)

/-- **C32** (onto): the forward transform undoes the inverse, so every residue vector is a transform. -/
theorem C32_forward_inverse (a : List ℕ) (ha : Poly512 a) : fw512 (inv512 a) = a := by
  have hr : ∀ x < 512, a[x]! ≤ 12289 := fun x hx => (get_lt_of_mem ha.1 ha.2 x hx).le
  obtain ⟨g1, g2, _⟩ := nttInv_spec (q := 12289) (chunk invWords) (by norm_num) qF_lt nm1F 9 a ha.1 hr
  have hp := poly512_fw (inv512 a) g1
  apply list_eq_of_res (q := 12289) _ _ (by rw [hp.1, ha.1])
  · intro x hx; exact get_lt_of_mem hp.1 hp.2 x (by rw [hp.1] at hx; exact hx)
  · intro x hx; exact get_lt_of_mem ha.1 ha.2 x (by rw [hp.1] at hx; exact hx)
  · intro x hx
    rw [hp.1] at hx
    exact law512.fw_inv (by norm_num) qF_lt nm1F nm1_512 a ha.1 hr x hx

/-- The inverse transform always returns 512 residues when its input is reduced. -/
theorem C32_inverse_reduced (a : List ℕ) (ha : Poly512 a) : Poly512 (inv512 a) := by
  obtain ⟨g1, g2, _⟩ := nttInv_spec (q := 12289) (chunk invWords) (by norm_num) qF_lt nm1F 9 a ha.1
    (fun x hx => (get_lt_of_mem ha.1 ha.2 x hx).le)
  exact ⟨g1, mem_lt_of_get g1 g2⟩

theorem nttFw_reduced (psi : ℕ → ℕ) (k : ℕ) (a : List ℕ) (ha : a.length = 2 ^ k) (har : ∀ x < 2 ^ k, a[x]! < 12289) :
    ∀ x < 2 ^ k, (nttFw psi 12289 (2 ^ k) a)[x]! < 12289 := by
  rcases Nat.eq_zero_or_pos k with rfl | h
  · have : nttFw psi 12289 (2 ^ 0) a = a := by unfold nttFw fwLoop; rfl
    rw [this]; exact har
  · exact (nttFw_spec (q := 12289) psi (by norm_num) qF_lt k a ha).2.1 h

theorem cast_inv (k nm1 : ℕ) (hn : 2 ^ k * nm1 % 12289 = 1) : ((2 ^ k : ℕ) : ZMod 12289) * nm1 = 1 := by
  rw [← Nat.cast_mul, show (1 : ZMod 12289) = ((1 : ℕ) : ZMod 12289) by norm_cast, ZMod.natCast_eq_natCast_iff]
  exact hn

theorem Law.roundTrip {psi psi' : ℕ → ℕ} {k : ℕ} (L : Law 12289 k psi psi') (nm1 : ℕ) (hn : 2 ^ k * nm1 % 12289 = 1) (a : List ℕ)
    (ha : a.length = 2 ^ k) (hr : ∀ x ∈ a, x < 12289) : nttInv psi' 12289 nm1 (nttFw psi 12289 a.length a).length (nttFw psi 12289 a.length a) = a := by
  have har : ∀ x < 2 ^ k, a[x]! < 12289 := get_lt_of_mem ha hr
  obtain ⟨f1, f2, f3⟩ := nttFw_spec (q := 12289) psi (by norm_num) qF_lt k a ha
  have f2' := nttFw_reduced psi k a ha har
  obtain ⟨e1, e2, _⟩ := nttInv_spec (q := 12289) psi' (by norm_num) qF_lt nm1 k _ f1 (fun x hx => (f2' x hx).le)
  rw [ha, f1]
  apply list_eq_of_res (q := 12289) _ _ (by rw [e1, ha])
  · rw [e1]; exact e2
  · rw [e1]; exact har
  · rw [e1]
    exact L.inv_fw (by norm_num) qF_lt nm1 (cast_inv k nm1 hn) _ f1 (fun x hx => (f2' x hx).le) (res 12289 a) f3

/-- **C32** (general contract): for every power of two up to 512 and `storage_nm1modq` the inverse of the length,
the stateless transforms are mutually inverse. -/
theorem C32_stateless (k nm1 : ℕ) (hk : k ≤ 9) (hn : 2 ^ k * nm1 % 12289 = 1) (a : List ℕ) (ha : a.length = 2 ^ k) (hr : ∀ x ∈ a, x < 12289) :
    statelessInv nm1 12289 (statelessFw 12289 a) = a ∧ statelessFw 12289 (statelessInv nm1 12289 a) = a := by
  have L := lawStateless k hk
  refine ⟨L.roundTrip nm1 hn a ha hr, ?_⟩
  have har : ∀ x < 2 ^ k, a[x]! < 12289 := get_lt_of_mem ha hr
  obtain ⟨g1, g2, _⟩ := nttInv_spec (q := 12289) (fun j => psiInvRev[j]!) (by norm_num) qF_lt nm1 k a ha (fun x hx => (har x hx).le)
  unfold statelessInv statelessFw
  rw [ha, g1]
  obtain ⟨d1, _, _⟩ := nttFw_spec (q := 12289) (fun j => psiRev[j]!) (by norm_num) qF_lt k _ g1
  apply list_eq_of_res (q := 12289) _ _ (by rw [d1, ha])
  · rw [d1]; exact nttFw_reduced _ k _ g1 g2
  · rw [d1]; exact har
  · rw [d1]
    exact L.fw_inv (by norm_num) qF_lt nm1 (cast_inv k nm1 hn) a ha (fun x hx => (har x hx).le)

/-! ## C33: multiplication -/

/-- **C33** (general contract): `mul_NTTPoly` returns the product in `Z_q[x]/(x^n+1)` for every power of two `n ≤ 512`. -/
theorem C33_mul_NTTPoly (k nm1 : ℕ) (hk : k ≤ 9) (hn : 2 ^ k * nm1 % 12289 = 1) (a b : List ℕ) (ha : a.length = 2 ^ k) (hb : b.length = 2 ^ k) :
    ∃ c, mulNTTPoly nm1 a b 12289 = .ok c ∧ IsProduct 12289 a b c := by
  have hn' := cast_inv k nm1 hn
  have L := lawStateless k hk
  unfold mulNTTPoly
  rw [if_neg (by omega)]
  refine ⟨_, rfl, ?_⟩
  unfold statelessInv statelessFw
  rw [length_vecMul, ha, hb]
  obtain ⟨g1, g2, _⟩ := nttInv_spec (q := 12289) (fun j => psiInvRev[j]!) (by norm_num) qF_lt nm1 k
    (vecMul 12289 (2 ^ k) (nttFw (fun j => psiRev[j]!) 12289 (2 ^ k) a) (nttFw (fun j => psiRev[j]!) 12289 (2 ^ k) b)) (by simp)
    (fun x hx => (vecMul_lt (by norm_num) _ _ _ x hx).le)
  refine ⟨by rw [g1, ha], mem_lt_of_get g1 g2, ?_⟩
  rw [ha]
  exact L.half_mul (by norm_num) qF_lt nm1 hn' a _ ha _ (by rw [length_toZ, hb]) fun x hx => L.fw_eval (by norm_num) qF_lt b hb x hx

/-- The product computed on 512 words with the second factor already transformed (and possibly not reduced). -/
theorem halfmul512 (a b h : List ℕ) (ha : a.length = 512) (hh : h.length = 512) (hb : IsTransform h (b.map (· % 12289))) :
    IsProduct 12289 a h (inv512 (vecMul qF 512 (fw512 a) b)) := by
  have hq : (12289 : ℕ) = qF := rfl
  obtain ⟨g1, g2, _⟩ := nttInv_spec (q := 12289) (chunk invWords) (by norm_num) qF_lt nm1F 9
    (vecMul qF 512 (fw512 a) b) (by simp) (fun x hx => (vecMul_lt (show 0 < qF by decide) _ _ _ x hx).le)
  refine ⟨by rw [ha]; exact g1, mem_lt_of_get g1 g2, ?_⟩
  rw [ha]
  refine law512.half_mul (by norm_num) qF_lt nm1F nm1_512 a _ ha _ (by rw [length_toZ, hh]; norm_num) fun x hx => ?_
  have hx : x < 512 := hx
  have e := hb.2 x hx
  rw [getD_eq_get!, get!_map_mod, ZMod.natCast_mod] at e
  have e' := node_root x hx
  show res 12289 b x = ev (node (fun i => (chunk fwWords i : ZMod 12289)) (512 + x)) (toZ 12289 h)
  rw [e']
  unfold res
  rw [e, ← aeval_toPoly, coe_aeval_eq_eval]

/-- **C33** (verifier): for packed arrays holding 16-bit words `a` and the transform of `h`, the contract's multiplication
returns the packed coefficients of the product of `a` and `h` modulo `x^512 + 1`.  Neither array need be reduced. -/
theorem C33_halfmul_compact (a b h : List ℕ) (d d' : ℕ → ℕ) (ha : a.length = 512) (ha' : ∀ x ∈ a, x < 65536) (hh : h.length = 512)
    (hb' : ∀ x ∈ b, x < 65536) (hb : IsTransform h (b.map (· % 12289))) :
    IsProduct 12289 a h
      (solExpand (asMem (halfMulCompact (asMem (solCompact (asMem a d)) d') (asMem (solCompact (asMem b d)) d')) d')) := by
  have hp := halfmul512 a b h ha hh hb
  have hbl : b.length = 512 := by have := hb.1.1; rwa [List.length_map] at this
  unfold halfMulCompact
  rw [Packing.solExpand_solCompact a d d' ha ha', Packing.solExpand_solCompact b d d' hbl hb',
    Packing.solExpand_solCompact _ _ d' (by rw [hp.1, ha]) (fun x hx => by have := hp.2.1 x hx; omega)]
  exact hp

/-- Every array of 512 words is, modulo 12289, the transform of exactly one polynomial, so the previous theorem covers every second argument. -/
theorem C33_every_key (b : List ℕ) (hb : b.length = 512) : ∃! h, Poly512 h ∧ IsTransform h (b.map (· % 12289)) := by
  have hp : Poly512 (b.map (· % 12289)) := ⟨by simpa using hb, fun x hx => by
    obtain ⟨y, _, rfl⟩ := List.mem_map.1 hx; exact Nat.mod_lt _ (by norm_num)⟩
  refine ⟨inv512 (b.map (· % 12289)), ⟨C32_inverse_reduced _ hp, ?_⟩, ?_⟩
  · have := C32_forward (inv512 (b.map (· % 12289))) (C32_inverse_reduced _ hp).1
    rwa [C32_forward_inverse _ hp] at this
  · rintro h ⟨h1, h2⟩
    have h3 := C32_forward h h1.1
    have : fw512 h = b.map (· % 12289) := by
      apply list_eq_of_res (q := 12289) _ _ (by rw [h3.1.1, hp.1])
      · rw [h3.1.1]; exact get_lt_of_mem h3.1.1 h3.1.2
      · rw [h3.1.1]; exact get_lt_of_mem hp.1 hp.2
      · rw [h3.1.1]
        intro x hx
        have e1 := h3.2 x hx
        have e2 := h2.2 x hx
        rw [← e2, getD_eq_get!, getD_eq_get!] at e1
        exact e1
    rw [← this, C32_round_trip h h1]

/-! ## The stateful contract and the deployment script -/

theorem codeWord_flat (ws : List ℕ) (hw : ∀ w ∈ ws, w < W) (k : ℕ) (hk : k < ws.length) : codeWord (packWords ws) k = ws[k] := by
  have hidx : ∀ (ws : List ℕ) (k i : ℕ), k < ws.length → i < 32 → (packWords ws).getD (32 * k + i) 0 = ws.getD k 0 / 256 ^ (31 - i) % 256 := by
    intro ws
    induction ws with
    | nil => intro k i hk; simp at hk
    | cons w ws ih =>
      intro k i hk hi
      have hl : ((List.range 32).map fun i => (w >>> (8 * (31 - i))) &&& 0xff).length = 32 := by simp
      have e : packWords (w :: ws) = ((List.range 32).map fun i => (w >>> (8 * (31 - i))) &&& 0xff) ++ packWords ws := by
        unfold packWords; rw [List.flatMap_cons]
      rw [e]
      rcases k with _ | k
      · rw [List.getD_eq_getElem?_getD, List.getElem?_append_left (by rw [hl]; omega), List.getElem?_map,
          List.getElem?_eq_getElem (by simpa using hi)]
        simp only [Nat.mul_zero, Nat.zero_add, List.getElem_range, Option.map_some, Option.getD_some, List.getD_cons_zero]
        rw [show (0xff : ℕ) = 2 ^ 8 - 1 by norm_num, Nat.and_two_pow_sub_one_eq_mod, Nat.shiftRight_eq_div_pow, pow_mul]
        norm_num
      · rw [List.getD_eq_getElem?_getD, List.getElem?_append_right (by rw [hl]; omega), hl,
          show 32 * (k + 1) + i - 32 = 32 * k + i by omega, ← List.getD_eq_getElem?_getD, ih k i (by simpa using hk) hi]
        rfl
  have hd : ws.getD k 0 = ws[k] := by rw [List.getD_eq_getElem?_getD, List.getElem?_eq_getElem hk]; rfl
  have hlt : ws[k] < 256 ^ 32 := by
    have := hw _ (List.getElem_mem hk)
    unfold W at this
    calc ws[k] < 2 ^ 256 := this
      _ = 256 ^ 32 := by norm_num
  unfold codeWord
  have : ∀ N ≤ 32, (List.range N).foldl (fun acc i => acc * 256 + (packWords ws).getD (32 * k + i) 0) 0 = ws[k] / 256 ^ (32 - N) := by
    intro N
    induction N with
    | zero => intro _; rw [Nat.div_eq_of_lt hlt]; rfl
    | succ N ih =>
      intro hN
      rw [List.range_succ, List.foldl_append, List.foldl_cons, List.foldl_nil, ih (by omega), hidx ws k N hk (by omega), hd,
        show 31 - N = 32 - (N + 1) by omega, show 32 - N = (32 - (N + 1)) + 1 by omega, pow_succ, ← Nat.div_div_eq_div_mul]
      exact Nat.div_add_mod' _ _
  rw [this 32 le_rfl]; simp

/-- **C62**: `Deploy` stores entry `k` of each table in bytes `2k` and `2k+1` of the deployed code. -/
theorem C62_deploy_layout : be16 deployedPsi = psiRev ∧ be16 deployedPsiInv = psiInvRev ∧ deployedPsi.length = 1024 := by decide +kernel

theorem packed_tables (k : ℕ) (hk : k < 512) : codeWord (packWords psiRev) k = chunk fwWords k ∧ codeWord (packWords psiInvRev) k = chunk invWords k := by
  have hl := C34_lengths
  have b1 : ∀ w ∈ psiRev, w < 65536 := by decide +kernel
  have b2 : ∀ w ∈ psiInvRev, w < 65536 := by decide +kernel
  have hW : 65536 < W := by unfold W; norm_num
  rw [codeWord_flat psiRev (fun w hw => (b1 w hw).trans hW) k (by omega), codeWord_flat psiInvRev (fun w hw => (b2 w hw).trans hW) k (by omega)]
  have e1 := (C34_forward_tables k hk)
  have e2 := (C34_inverse_tables k hk)
  rw [getElem!_pos psiRev k (by omega)] at e1
  rw [getElem!_pos psiInvRev k (by omega)] at e2
  exact ⟨e1.2.1.trans e1.1.symm, e2.2.1⟩

/-- **C62** (what the stateful contract needs): if the code at the two addresses holds the tables with 32 bytes per entry,
the stateful transforms are mutually inverse. -/
theorem C62_stateful_partial (k nm1 : ℕ) (hk : k ≤ 9) (hn : 2 ^ k * nm1 % 12289 = 1) (a : List ℕ) (ha : a.length = 2 ^ k) (hr : ∀ x ∈ a, x < 12289) :
    statefulInv nm1 12289 (packWords psiInvRev) (statefulFw 12289 (packWords psiRev) a) = a :=
  (law_of_tables _ _ k hk packed_tables).roundTrip nm1 hn a ha hr

/-- Past the 1024th byte the deployed code reads as zero: only 32 of the 512 entries can be read by the stateful contract. -/
theorem codeWord_deployed (k : ℕ) (hk : 32 ≤ k) : codeWord deployedPsi k = 0 := by
  have hl := C62_deploy_layout.2.2
  unfold codeWord
  have : ∀ N, (List.range N).foldl (fun acc i => acc * 256 + deployedPsi.getD (32 * k + i) 0) 0 = 0 := by
    intro N
    induction N with
    | zero => rfl
    | succ N ih =>
      rw [List.range_succ, List.foldl_append, ih, List.foldl_cons, List.foldl_nil, List.getD_eq_getElem?_getD,
        List.getElem?_eq_none (by rw [hl]; omega)]
      rfl
  exact this 32

/-- **C62 is false**: with the addresses returned by `Deploy`, the stateful forward transform of every 512-coefficient polynomial has
equal neighbours in each pair, because the twiddles it reads for the last four rounds are zero; it therefore loses information. -/
theorem C62_false (a : List ℕ) (ha : a.length = 512) (i : ℕ) (hi : i < 256) :
    (statefulFw 12289 deployedPsi a).getD (2 * i) 0 = (statefulFw 12289 deployedPsi a).getD (2 * i + 1) 0 := by
  unfold statefulFw
  rw [ha]
  obtain ⟨h1, h2, h3⟩ := nttFw_spec (q := 12289) (codeWord deployedPsi) (by norm_num) qF_lt 9 a ha
  have h2 := h2 (by norm_num)
  rw [getD_eq_get!, getD_eq_get!]
  have e := FL_dead (fun i => (codeWord deployedPsi i : ZMod 12289)) 8 1 (res 12289 a)
    (fun j hj => by rw [codeWord_deployed j (by norm_num at hj; omega), Nat.cast_zero]) i
  rw [← h3 (2 * i) (by norm_num; omega), ← h3 (2 * i + 1) (by norm_num; omega)] at e
  unfold res at e
  rw [ZMod.natCast_eq_natCast_iff] at e
  exact Nat.ModEq.eq_of_lt_of_lt e (h2 _ (by norm_num; omega)) (h2 _ (by norm_num; omega))

/-- The correct transform does not have that property: for the polynomial `x` the first two values differ. -/
theorem C62_witness : (fw512 (0 :: 1 :: List.replicate 510 0)).getD 0 0 ≠ (fw512 (0 :: 1 :: List.replicate 510 0)).getD 1 0 := by
  have hl : (0 :: 1 :: List.replicate 510 0 : List ℕ).length = 512 := by rw [List.length_cons, List.length_cons, List.length_replicate]
  have ht := C32_forward (0 :: 1 :: List.replicate 510 0) hl
  have hv : ∀ x < 512, (((fw512 (0 :: 1 :: List.replicate 510 0)).getD x 0 : ℕ) : ZMod 12289) = root x := by
    intro x hx
    rw [ht.2 x hx, ← coe_aeval_eq_eval, aeval_toPoly, ev_toZ, hl, Finset.sum_eq_single 1]
    · show ((1 : ℕ) : ZMod 12289) * root x ^ 1 = root x
      rw [Nat.cast_one, one_mul, pow_one]
    · intro k hk hk1
      have hk : k < 512 := by simpa using hk
      have : (0 :: 1 :: List.replicate 510 0 : List ℕ)[k]! = 0 := by
        rcases k with _ | _ | k
        · rfl
        · exact absurd rfl hk1
        · rw [List.getElem!_eq_getElem?_getD, List.getElem?_cons_succ, List.getElem?_cons_succ, List.getElem?_replicate]
          split <;> rfl
      unfold res; rw [this, Nat.cast_zero, zero_mul]
    · intro h; exact absurd (by simp) h
  intro h
  have e0 := hv 0 (by norm_num)
  rw [h, hv 1 (by norm_num)] at e0
  exact absurd (C34_roots.2 1 (by norm_num) 0 (by norm_num) e0) (by norm_num)

/-! ## C66: the vector operations and the half product of the general contract -/

/-- `ZKNOX_NTT_HALFMUL` returns the product of `a` and the polynomial whose (unreduced) stateless transform is `b`. -/
theorem C66_half_mul (k nm1 : ℕ) (hk : k ≤ 9) (hn : 2 ^ k * nm1 % 12289 = 1) (a b h : List ℕ) (ha : a.length = 2 ^ k) (hh : h.length = 2 ^ k)
    (hb : b.length = 2 ^ k) (ht : b.map (· % 12289) = (statelessFw 12289 h).map (· % 12289)) :
    ∃ c, halfMul nm1 a b 12289 = .ok c ∧ IsProduct 12289 a h c := by
  have hn' := cast_inv k nm1 hn
  have L := lawStateless k hk
  unfold halfMul
  rw [if_neg (by omega)]
  refine ⟨_, rfl, ?_⟩
  unfold statelessInv statelessFw
  rw [length_vecMul, ha]
  obtain ⟨g1, g2, _⟩ := nttInv_spec (q := 12289) (fun j => psiInvRev[j]!) (by norm_num) qF_lt nm1 k
    (vecMul 12289 (2 ^ k) (nttFw (fun j => psiRev[j]!) 12289 (2 ^ k) a) b) (by simp)
    (fun x hx => (vecMul_lt (by norm_num) _ _ _ x hx).le)
  refine ⟨by rw [g1, ha], mem_lt_of_get g1 g2, ?_⟩
  rw [ha]
  refine L.half_mul (by norm_num) qF_lt nm1 hn' a _ ha _ (by rw [length_toZ, hh]) fun x hx => ?_
  have e := L.fw_eval (by norm_num) qF_lt h hh x hx
  rw [← e]
  have e2 := congrArg (fun l : List ℕ => l[x]!) ht
  simp only at e2
  rw [get!_map_mod, get!_map_mod] at e2
  unfold res
  have e3 := congrArg (fun x : ℕ => (x : ZMod 12289)) e2
  simp only [ZMod.natCast_mod] at e3
  rw [e3]
  unfold statelessFw
  rw [hh]

theorem length_statefulFw (k : ℕ) (a : List ℕ) (ha : a.length = 2 ^ k) {code : List ℕ} : (statefulFw 12289 code a).length = 2 ^ k := by
  unfold statefulFw
  rw [ha]
  exact (nttFw_spec (q := 12289) (codeWord code) (by norm_num) qF_lt k a ha).1

/-- The half product with tables read from code holding 32 bytes per entry. -/
theorem stateful_half_mul (k nm1 : ℕ) (hk : k ≤ 9) (hn : 2 ^ k * nm1 % 12289 = 1) (a b h : List ℕ) (ha : a.length = 2 ^ k) (hh : h.length = 2 ^ k)
    (hb : b.length = 2 ^ k) (ht : b.map (· % 12289) = (statefulFw 12289 (packWords psiRev) h).map (· % 12289)) :
    IsProduct 12289 a h (statefulInv nm1 12289 (packWords psiInvRev) (vecMul 12289 a.length (statefulFw 12289 (packWords psiRev) a) b)) := by
  have hn' := cast_inv k nm1 hn
  have L := law_of_tables (codeWord (packWords psiRev)) (codeWord (packWords psiInvRev)) k hk packed_tables
  unfold statefulInv statefulFw
  rw [length_vecMul, ha]
  obtain ⟨g1, g2, _⟩ := nttInv_spec (q := 12289) (codeWord (packWords psiInvRev)) (by norm_num) qF_lt nm1 k
    (vecMul 12289 (2 ^ k) (nttFw (codeWord (packWords psiRev)) 12289 (2 ^ k) a) b) (by simp)
    (fun x hx => (vecMul_lt (by norm_num) _ _ _ x hx).le)
  refine ⟨by rw [g1, ha], mem_lt_of_get g1 g2, ?_⟩
  rw [ha]
  refine L.half_mul (by norm_num) qF_lt nm1 hn' a _ ha _ (by rw [length_toZ, hh]) fun x hx => ?_
  have e := L.fw_eval (by norm_num) qF_lt h hh x hx
  rw [← e]
  have e2 := congrArg (fun l : List ℕ => l[x]!) ht
  simp only at e2
  rw [get!_map_mod, get!_map_mod] at e2
  unfold res
  have e3 := congrArg (fun x : ℕ => (x : ZMod 12289)) e2
  simp only [ZMod.natCast_mod] at e3
  rw [e3]
  unfold statefulFw
  rw [hh]

/-- `ZKNOX_NTT_HALFMUL`, `mul_NTTPoly` and the two vector operations panic exactly on arrays of different lengths
(the subtraction also when an entry of `b` exceeds `q`). -/
theorem C66_reverts (nm1 q : ℕ) (a b : List ℕ) :
    ((∃ c, halfMul nm1 a b q = .ok c) ↔ a.length = b.length) ∧ ((∃ c, mulNTTPoly nm1 a b q = .ok c) ↔ a.length = b.length) ∧
    ((∃ c, vecAdd a b q = .ok c) ↔ a.length = b.length) ∧
    ((∃ c, vecSub a b q = .ok c) ↔ a.length = b.length ∧ ∀ x ∈ b, x ≤ q) := by
  have hany : a.length = b.length → ((List.range a.length).any (fun i => decide (b[i]! > q)) = true ↔ ¬ ∀ x ∈ b, x ≤ q) := by
    intro hl
    rw [List.any_eq_true]
    constructor
    · rintro ⟨i, hi, h⟩ hall
      have hi : i < b.length := by simpa [hl] using hi
      rw [getElem!_pos b i hi] at h
      have := hall _ (List.getElem_mem hi)
      simp at h; omega
    · intro h
      push Not at h
      obtain ⟨x, hx, h⟩ := h
      obtain ⟨i, hi, rfl⟩ := List.getElem_of_mem hx
      exact ⟨i, by simpa [hl] using hi, by rw [getElem!_pos b i hi]; simpa using h⟩
  unfold halfMul mulNTTPoly vecAdd vecSub
  by_cases hl : a.length = b.length
  · simp only [hl, ne_eq, not_true_eq_false, if_false, if_true]
    refine ⟨by simp, by simp, by simp, ?_⟩
    have := hany hl
    rw [hl] at this
    split
    · rename_i h; simp only [reduceCtorEq, exists_false, true_and, false_iff]; exact this.1 h
    · rename_i h
      simp only [Except.ok.injEq, exists_eq', true_and, true_iff]
      by_contra hc; exact h (this.2 hc)
  · simp [hl]

/-- `ZKNOX_VECADDMOD` adds and `ZKNOX_VECSUBMOD` subtracts entry by entry modulo `q`, for every modulus and every (also unreduced) word;
the result is reduced. -/
theorem C66_vec (q : ℕ) (hq : 0 < q) (a b c : List ℕ) :
    (vecAdd a b q = .ok c → c.length = a.length ∧ (∀ x ∈ c, x < q) ∧ toZ q c = List.zipWith (· + ·) (toZ q a) (toZ q b)) ∧
    (vecSub a b q = .ok c → c.length = a.length ∧ (∀ x ∈ c, x < q) ∧ toZ q c = List.zipWith (· - ·) (toZ q a) (toZ q b)) := by
  constructor
  · intro h
    have hl := ((C66_reverts 0 q a b).2.2.1).1 ⟨c, h⟩
    unfold vecAdd at h
    rw [if_neg (by simpa using hl)] at h
    cases h
    refine ⟨by simp, ?_, ?_⟩
    · intro x hx
      obtain ⟨i, _, rfl⟩ := List.mem_map.1 hx
      unfold addmod; rw [if_neg hq.ne']; exact Nat.mod_lt _ hq
    · unfold toZ
      apply List.ext_getElem
      · simp [hl]
      · intro i h1 h2
        have ia : i < a.length := by simpa using h1
        have ib : i < b.length := by omega
        simp only [List.getElem_map, List.getElem_range, List.getElem_zipWith, addmod, if_neg hq.ne', ZMod.natCast_mod,
          getElem!_pos a i ia, getElem!_pos b i ib]
        push_cast; rfl
  · intro h
    obtain ⟨hl, hle⟩ := ((C66_reverts 0 q a b).2.2.2).1 ⟨c, h⟩
    unfold vecSub at h
    rw [if_neg (by simpa using hl)] at h
    split at h
    · cases h
    cases h
    refine ⟨by simp, ?_, ?_⟩
    · intro x hx
      obtain ⟨i, _, rfl⟩ := List.mem_map.1 hx
      unfold addmod; rw [if_neg hq.ne']; exact Nat.mod_lt _ hq
    · unfold toZ
      apply List.ext_getElem
      · simp [hl]
      · intro i h1 h2
        have ia : i < a.length := by simpa using h1
        have ib : i < b.length := by omega
        simp only [List.getElem_map, List.getElem_range, List.getElem_zipWith, addmod, if_neg hq.ne', ZMod.natCast_mod,
          getElem!_pos a i ia, getElem!_pos b i ib]
        rw [Nat.cast_add, Nat.cast_sub (hle _ (List.getElem_mem ib)), ZMod.natCast_self]
        ring

example : vecSub [1, 12289, 5] [2, 3, 12289] 12289 = .ok [12288, 12286, 5] ∧ vecAdd [12288, 7] [12289, 12288] 12289 = .ok [12288, 6] ∧
    halfMul 9217 [0, 0, 0, 1] (statelessFw 12289 [0, 1, 0, 0]) 12289 = .ok [12288, 0, 0, 0] := by decide +kernel

/-! ## Non-vacuity -/

/-- A concrete polynomial with 512 residues. -/
example : Poly512 ((List.range 512).map fun i => i * 24) := by constructor <;> decide +kernel

/-- The stateless transform on four coefficients, computed. -/
example : statelessFw 12289 [1, 2, 3, 4] ≠ [1, 2, 3, 4] ∧ 2 ^ 2 * 9217 % 12289 = 1 ∧
    statelessInv 9217 12289 (statelessFw 12289 [1, 2, 3, 4]) = [1, 2, 3, 4] ∧
    mulNTTPoly 9217 [0, 0, 0, 1] [0, 1, 0, 0] 12289 = .ok [12288, 0, 0, 0] := by decide +kernel

end Verif.NTT
