import Verif.CRef.KgCheck

/-! # C91: arithmetic and transforms modulo every prime of the table -/

namespace Verif.CRef.Kg

open Verif.NTT Verif.Ring Verif.Falcon
open Verif.Packing (W getElem!_set)

variable {p p0i : ℕ}

/-- **C91** (arithmetic): for every prime of the table and all residues, the C routines compute sums, differences, Montgomery products (`a*b/2^31`), quotients, `2^31` and `2^62`, and the residue of a
signed integer, always as the canonical residue. -/
theorem C91_arith (i : ℕ) (hi : i < 521) (a b : ℕ) (ha : a < primeList[i]!) (hb : b < primeList[i]!) :
    modpAdd a b primeList[i]! = (a + b) % primeList[i]! ∧
    (modpSub a b primeList[i]! < primeList[i]! ∧ (modpSub a b primeList[i]! + b) % primeList[i]! = a) ∧
    (modpMontymul a b primeList[i]! (modpNinv31 primeList[i]!) < primeList[i]! ∧ modpMontymul a b primeList[i]! (modpNinv31 primeList[i]!) * 2 ^ 31 % primeList[i]! = a * b % primeList[i]!) ∧
    modpR primeList[i]! = 2 ^ 31 % primeList[i]! ∧ modpR2 primeList[i]! (modpNinv31 primeList[i]!) = 2 ^ 62 % primeList[i]! ∧
    (0 < b → modpDiv a b primeList[i]! (modpNinv31 primeList[i]!) (modpR primeList[i]!) < primeList[i]! ∧
      modpDiv a b primeList[i]! (modpNinv31 primeList[i]!) (modpR primeList[i]!) * b % primeList[i]! = a) ∧
    ∀ x : ℤ, -(primeList[i]! : ℤ) < x → x < primeList[i]! → (modpSet x primeList[i]! : ℤ) = x % primeList[i]! := by
  have M := modulus_table i hi
  generalize primeList[i]! = p at *
  have hF : Fact p.Prime := ⟨M.prime⟩
  have hp0 := p_pos M
  have cast : ∀ x y : ℕ, (x : ZMod p) = y ↔ x % p = y % p := fun x y => ZMod.natCast_eq_natCast_iff' x y p
  refine ⟨modpAdd_eq M.hi a b ha hb, ?_, ⟨montymul_lt M a b ha hb, ?_⟩, ?_, ?_, ?_, ?_⟩
  · rw [modpSub_eq M.hi a b ha hb]
    refine ⟨Nat.mod_lt _ hp0, ?_⟩
    rw [Nat.mod_add_mod, show a + (p - b) + b = a + p by omega, Nat.add_mod_right, Nat.mod_eq_of_lt ha]
  · rw [← cast]
    have := cast_mm M a b ha hb
    unfold Rf at this
    push_cast
    exact this
  · obtain ⟨h1, h2⟩ := modpR_eq M
    rw [← Nat.mod_eq_of_lt h1, ← cast, h2]; unfold Rf; norm_num
  · obtain ⟨h1, h2⟩ := modpR2_eq M
    rw [← Nat.mod_eq_of_lt h1, ← cast, h2]; unfold Rf; norm_num
  · intro hb0
    obtain ⟨h1, h2⟩ := modpDiv_eq M a b ha hb
    refine ⟨h1, ?_⟩
    conv_rhs => rw [← Nat.mod_eq_of_lt ha]
    rw [← cast, Nat.cast_mul, h2, mul_assoc, inv_mul_cancel₀, mul_one]
    intro h0
    have := (cast b 0).1 (by simpa using h0)
    rw [Nat.mod_eq_of_lt hb, Nat.zero_mod] at this
    omega
  · intro x h1 h2
    obtain ⟨h3, h4⟩ := modpSet_eq M x h1 h2
    have e : ((modpSet x p : ℤ) : ZMod p) = (x : ZMod p) := by rw [← h4]; simp
    rw [ZMod.intCast_eq_intCast_iff'] at e
    rw [← e, Int.emod_eq_of_lt (by omega) (by omega)]

/-- The final factor of the inverse transform. -/
def scaleP (p k : ℕ) : ℕ := ((((1 <<< (31 - k)) % 4294967296 : ℕ) : ZMod p) * (Rf p)⁻¹).val

theorem scale_lt (M : Modulus p p0i) (k : ℕ) (hk : 0 < k) : (1 <<< (31 - k)) % 4294967296 < p := by
  have h1 : 1 <<< (31 - k) ≤ 2 ^ 30 := by
    rw [Nat.one_shiftLeft]; exact Nat.pow_le_pow_right (by norm_num) (by omega)
  have := M.lo
  have h3 := Nat.mod_le (1 <<< (31 - k)) 4294967296
  omega

theorem scale_inv (M : Modulus p p0i) (k : ℕ) (hk : k ≤ 10) : ((2 ^ k : ℕ) : ZMod p) * scaleP p k = 1 := by
  have hF : Fact p.Prime := ⟨M.prime⟩
  unfold scaleP
  rw [ZMod.natCast_zmod_val, ← mul_assoc, ← Nat.cast_mul]
  have h1 : 1 <<< (31 - k) < 4294967296 := by
    rw [Nat.one_shiftLeft, show 4294967296 = 2 ^ 32 by rfl]; exact Nat.pow_lt_pow_right (by norm_num) (by omega)
  rw [Nat.mod_eq_of_lt h1, Nat.one_shiftLeft, ← pow_add, show k + (31 - k) = 31 by omega]
  have : (((2 : ℕ) ^ 31 : ℕ) : ZMod p) = Rf p := by unfold Rf; norm_num
  rw [this, mul_inv_cancel₀ (Rf_ne M)]

theorem intt2_eq (M : Modulus p p0i) (igm : List ℕ) (hg : CanonP p igm) (k : ℕ) (hk : 0 < k) (a : List ℕ) (hl : a.length = 2 ^ k) (h : CanonP p a) :
    intt2 a igm k p p0i = nttInv (psi p igm) p (scaleP p k) (2 ^ k) a := by
  obtain ⟨e1, e2⟩ := invOuter_eq M igm hg (2 ^ k) 1 (2 ^ k) a h
  unfold intt2 nttInv
  rw [if_neg (by omega)]
  dsimp only
  rw [e1]
  have hlen : (invLoop (psi p igm) p (2 ^ k) 1 (2 ^ k) a).length = 2 ^ k := by
    have := (nttInv_spec (psi p igm) (p_pos M) (p_W M) 1 k a hl (fun x _ => (h x).le)).1
    unfold nttInv at this
    rwa [List.length_map] at this
  apply List.ext_getElem
  · rw [List.length_map, List.length_map, List.length_range, hlen]
  · intro i h1 h2
    rw [List.length_map, List.length_range] at h1
    rw [List.getElem_map, List.getElem_map, List.getElem_range, mm_table M _ _ (e2 i) (scale_lt M k hk), mulmod_p (p_pos M), getElem!_pos _ i (by omega)]
    rfl

theorem nttFw_one (ps : ℕ → ℕ) (p : ℕ) (a : List ℕ) : nttFw ps p (2 ^ 0) a = a := rfl

/-- The two transforms and the facts about them, for one modulus. -/
theorem transforms (M : Modulus p p0i) (k : ℕ) (hk : k ≤ 10) (gm igm : List ℕ) (hl : gm.length = 2 ^ k) (hl' : igm.length = 2 ^ k) (g : ℕ) (hg : Root p g)
    (a b : List ℕ) (ha : a.length = 2 ^ k) (hb : b.length = 2 ^ k) (ca : ∀ x ∈ a, x < p) (cb : ∀ x ∈ b, x < p) :
    intt2 (ntt2 a (mkgm2 gm igm k g p p0i).1 k p p0i) (mkgm2 gm igm k g p p0i).2 k p p0i = a ∧
    ntt2 (intt2 a (mkgm2 gm igm k g p p0i).2 k p p0i) (mkgm2 gm igm k g p p0i).1 k p p0i = a ∧
    NTT.toZ p (intt2 ((List.range (2 ^ k)).map fun u => modpMontymul (modpMontymul (ntt2 a (mkgm2 gm igm k g p p0i).1 k p p0i)[u]! (ntt2 b (mkgm2 gm igm k g p p0i).1 k p p0i)[u]! p p0i)
      (modpR2 p p0i) p p0i) (mkgm2 gm igm k g p p0i).2 k p p0i) = negMul (2 ^ k) (NTT.toZ p a) (NTT.toZ p b) := by
  have hF : Fact p.Prime := ⟨M.prime⟩
  have h0 := p_pos M
  have hW := p_W M
  obtain ⟨L, cg, ci⟩ := law_mkgm2 M k hk gm igm hl hl' g hg
  generalize (mkgm2 gm igm k g p p0i).1 = G at *
  generalize (mkgm2 gm igm k g p p0i).2 = I at *
  have canon : ∀ a : List ℕ, a.length = 2 ^ k → (∀ x ∈ a, x < p) → CanonP p a := fun a ha ca =>
    canonP_of (2 ^ k) h0 a ha fun x hx => by rw [getElem!_pos a x (by omega)]; exact ca _ (List.getElem_mem _)
  have cA := canon a ha ca
  have cB := canon b hb cb
  have hs := scale_inv M k hk
  obtain ⟨n1, n2⟩ := ntt2_eq M G cg k a cA
  obtain ⟨m1, m2⟩ := ntt2_eq M G cg k b cB
  have lA : (ntt2 a G k p p0i).length = 2 ^ k := by rw [n1]; exact (nttFw_spec _ h0 hW k a ha).1
  have lB : (ntt2 b G k p p0i).length = 2 ^ k := by rw [m1]; exact (nttFw_spec _ h0 hW k b hb).1
  obtain ⟨P, hP⟩ : ∃ P, P = (List.range (2 ^ k)).map fun u => modpMontymul (modpMontymul (ntt2 a G k p p0i)[u]! (ntt2 b G k p p0i)[u]! p p0i) (modpR2 p p0i) p p0i := ⟨_, rfl⟩
  have eP : P = vecMul p (2 ^ k) (nttFw (psi p G) p (2 ^ k) a) (nttFw (psi p G) p (2 ^ k) b) := by
    rw [hP, ← n1, ← m1]
    unfold vecMul
    apply List.map_congr_left
    intro u _
    rw [mulmod_p h0]
    have h1 := montymul_lt M _ _ (n2 u) (m2 u)
    have h2 := cast_mm M _ _ (n2 u) (m2 u)
    have h3 := modpR2_eq M
    have h4 := montymul_lt M _ _ h1 h3.1
    have h5 := cast_mm M _ _ h1 h3.1
    rw [h3.2, ← mul_assoc, h2] at h5
    have h6 := mul_right_cancel₀ (Rf_ne M) h5
    rw [← Nat.cast_mul, ZMod.natCast_eq_natCast_iff', Nat.mod_eq_of_lt h4] at h6
    exact h6
  rw [← hP]
  have cP : ∀ x < 2 ^ k, P[x]! < p := fun x hx => by rw [eP]; exact vecMul_lt h0 _ _ _ x hx
  have lP : P.length = 2 ^ k := by rw [eP]; simp
  rcases Nat.eq_zero_or_pos k with hk0 | hk0
  · subst hk0
    have e1 : ∀ c, ntt2 c G 0 p p0i = c := fun c => rfl
    have e2 : ∀ c, intt2 c I 0 p p0i = c := fun c => rfl
    rw [e1, e2, e2, e1]
    refine ⟨rfl, rfl, ?_⟩
    rw [eP, nttFw_one, nttFw_one]
    rw [pow_zero] at ha hb
    obtain ⟨x, rfl⟩ := List.length_eq_one_iff.1 ha
    obtain ⟨y, rfl⟩ := List.length_eq_one_iff.1 hb
    simp [NTT.toZ, vecMul, negMul, negCoeff, mulmod_p h0]
  · have j1 := intt2_eq M I ci k hk0 _ lA n2
    have j2 := intt2_eq M I ci k hk0 a ha cA
    have j3 := intt2_eq M I ci k hk0 P lP (canonP_of _ h0 _ lP cP)
    obtain ⟨s1, s2, _⟩ := nttInv_spec (psi p I) h0 hW (scaleP p k) k a ha (fun x _ => (cA x).le)
    have c2 : CanonP p (intt2 a I k p p0i) := by rw [j2]; exact canonP_of _ h0 _ s1 s2
    obtain ⟨o1, o2⟩ := ntt2_eq M G cg k _ c2
    refine ⟨?_, ?_, ?_⟩
    · obtain ⟨t1, t2, _⟩ := nttInv_spec (psi p I) h0 hW (scaleP p k) k _ lA (fun x _ => (n2 x).le)
      rw [j1]
      apply list_eq_of_res (q := p) _ _ (by rw [t1, ha]) (fun x hx => t2 x (by omega)) (fun x _ => cA x)
      intro x hx
      rw [t1] at hx
      exact L.inv_fw h0 hW _ hs _ lA (fun x _ => (n2 x).le) (res p a) (by rw [n1]; exact (nttFw_spec _ h0 hW k a ha).2.2) x hx
    · have l2 : (ntt2 (intt2 a I k p p0i) G k p p0i).length = 2 ^ k := by rw [o1, j2]; exact (nttFw_spec _ h0 hW k _ s1).1
      apply list_eq_of_res (q := p) _ _ (by rw [l2, ha]) (fun x _ => o2 x) (fun x _ => cA x)
      intro x hx
      rw [l2] at hx
      rw [o1, j2]
      exact L.fw_inv h0 hW _ hs a ha (fun x _ => (cA x).le) x hx
    · rw [j3, eP]
      exact L.half_mul h0 hW _ hs a _ ha (NTT.toZ p b) (by simpa [NTT.toZ] using hb) (fun x hx => L.fw_eval h0 hW b hb x hx)

/-- **C91** (transforms): for every prime of the table and every degree `2^0..2^10`, with the tables made by `modp_mkgm2`, the two transforms undo each other on all vectors of residues, and the
transform, the product of corresponding words and the inverse transform multiply modulo `X^n + 1`. -/
theorem C91_ntt (i : ℕ) (hi : i < 521) (k : ℕ) (hk : k ≤ 10) (gm igm : List ℕ) (hl : gm.length = 2 ^ k) (hl' : igm.length = 2 ^ k)
    (a b : List ℕ) (ha : a.length = 2 ^ k) (hb : b.length = 2 ^ k) (ca : ∀ x ∈ a, x < primeList[i]!) (cb : ∀ x ∈ b, x < primeList[i]!) (p p0i : ℕ) (G I : List ℕ)
    (hp : p = primeList[i]!) (hpi : p0i = modpNinv31 p) (hT : mkgm2 gm igm k (primes[i]!).2.1 p p0i = (G, I)) :
    intt2 (ntt2 a G k p p0i) I k p p0i = a ∧ ntt2 (intt2 a I k p p0i) G k p p0i = a ∧
    NTT.toZ p (intt2 ((List.range (2 ^ k)).map fun u => modpMontymul (modpMontymul (ntt2 a G k p p0i)[u]! (ntt2 b G k p p0i)[u]! p p0i) (modpR2 p p0i) p p0i) I k p p0i) =
      negMul (2 ^ k) (NTT.toZ p a) (NTT.toZ p b) := by
  have E := C91_primes i hi
  have M := modulus_table i hi
  subst hp hpi
  have h := transforms M k hk gm igm hl hl' (primes[i]!).2.1 ⟨E.glt, E.root⟩ a b ha hb ca cb
  rw [hT] at h
  exact h

/-- The hypotheses of `C91_ntt` for the third prime and degree 2: `(1 + 2X)(3 + 4X) = -5 + 10X` modulo `X^2 + 1`. -/
example : ∃ G I, mkgm2 [0, 0] [0, 0] 1 (primes[2]!).2.1 primeList[2]! (modpNinv31 primeList[2]!) = (G, I) ∧
    intt2 ((List.range 2).map fun u => modpMontymul (modpMontymul (ntt2 [1, 2] G 1 primeList[2]! (modpNinv31 primeList[2]!))[u]! (ntt2 [3, 4] G 1 primeList[2]! (modpNinv31 primeList[2]!))[u]!
      primeList[2]! (modpNinv31 primeList[2]!)) (modpR2 primeList[2]! (modpNinv31 primeList[2]!)) primeList[2]! (modpNinv31 primeList[2]!)) I 1 primeList[2]! (modpNinv31 primeList[2]!) =
      [primeList[2]! - 5, 10] := ⟨_, _, rfl, by decide +kernel⟩

end Verif.CRef.Kg
