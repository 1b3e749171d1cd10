import Verif.CRef.Deepest
import Verif.CRef.KgInv

/-! # One prime: the products of neighbours of the transform are the transform of the field norm -/

namespace Verif.CRef.Kg

open Verif.NTT Verif.Ring Verif.Falcon
open Verif.Packing (W getElem!_set)

variable {p p0i : ℕ}

/-- The residues of a list of integers. -/
def residues (p : ℕ) (a : List ℤ) : List ℕ := a.map fun z : ℤ => (z % (p : ℤ)).toNat

theorem toNat_mod (hp : 0 < p) (z : ℤ) : (z % (p : ℕ)).toNat < p ∧ (((z % (p : ℕ)).toNat : ℕ) : ZMod p) = (z : ZMod p) := by
  have h0 : 0 ≤ z % (p : ℕ) := Int.emod_nonneg _ (by omega)
  have h1 : z % (p : ℕ) < p := Int.emod_lt_of_pos _ (by omega)
  refine ⟨by omega, ?_⟩
  have : (((z % (p : ℕ)).toNat : ℤ) : ZMod p) = (z : ZMod p) := by
    rw [Int.toNat_of_nonneg h0, ZMod.intCast_mod]
  rw [← this]; push_cast; rfl

theorem residues_length (p : ℕ) (a : List ℤ) : (residues p a).length = a.length := by simp [residues]

theorem residues_lt (hp : 0 < p) (a : List ℤ) : ∀ x ∈ residues p a, x < p := by
  intro x hx
  obtain ⟨z, _, rfl⟩ := List.mem_map.1 hx
  exact (toNat_mod hp z).1

theorem residues_canon (hp : 0 < p) (a : List ℤ) : CanonP p (residues p a) :=
  canonP_of _ hp _ rfl fun x hx => by rw [getElem!_pos _ x hx]; exact residues_lt hp a _ (List.getElem_mem _)

theorem residues_toZ (hp : 0 < p) (a : List ℤ) : NTT.toZ p (residues p a) = zp p a := by
  unfold NTT.toZ residues zp
  rw [List.map_map]
  exact List.map_congr_left fun z _ => (toNat_mod hp z).2

theorem law_mono {k : ℕ} {a b : ℕ → ℕ} (L : Law p (k + 1) a b) : Law p k a b := by
  have : 2 ^ k ≤ 2 ^ (k + 1) := Nat.pow_le_pow_right (by norm_num) (by omega)
  exact ⟨L.one, fun i h0 hi => L.sq i h0 (by omega), fun i h0 hi => L.inv i h0 (by omega)⟩

theorem ntt_eval (M : Modulus p p0i) {k : ℕ} {G : List ℕ} {ps' : ℕ → ℕ} (L : Law p k (psi p G) ps') (hg : CanonP p G) (a : List ℤ) (la : a.length = 2 ^ k) :
    (ntt2 (residues p a) G k p p0i).length = 2 ^ k ∧ CanonP p (ntt2 (residues p a) G k p p0i) ∧
      ∀ x < 2 ^ k, (((ntt2 (residues p a) G k p p0i)[x]! : ℕ) : ZMod p) = ev (node (fun i => (psi p G i : ZMod p)) (2 ^ k + x)) a := by
  have h0 := p_pos M
  have lr : (residues p a).length = 2 ^ k := by rw [residues_length, la]
  obtain ⟨n1, n2⟩ := ntt2_eq M G hg k _ (residues_canon h0 a)
  refine ⟨by rw [n1]; exact (nttFw_spec _ h0 (p_W M) k _ lr).1, n2, fun x hx => ?_⟩
  have := L.fw_eval h0 (p_W M) _ lr x hx
  rw [residues_toZ h0, ev_zp, ← n1] at this
  exact this

/-- The inverse transform undoes the transform, also with tables of a larger size. -/
theorem ntt_back (M : Modulus p p0i) {k : ℕ} (hk : k ≤ 10) {G I : List ℕ} (L : Law p k (psi p G) (psi p I)) (hg : CanonP p G) (hi : CanonP p I) (a : List ℤ) (la : a.length = 2 ^ k) :
    intt2 (ntt2 (residues p a) G k p p0i) I k p p0i = residues p a := by
  have h0 := p_pos M
  have hW := p_W M
  have lr : (residues p a).length = 2 ^ k := by rw [residues_length, la]
  have cr := residues_canon h0 a
  obtain ⟨n1, n2⟩ := ntt2_eq M G hg k _ cr
  have lA : (ntt2 (residues p a) G k p p0i).length = 2 ^ k := by rw [n1]; exact (nttFw_spec _ h0 hW k _ lr).1
  rcases Nat.eq_zero_or_pos k with hk0 | hk0
  · subst hk0; rfl
  · have j1 := intt2_eq M I hi k hk0 _ lA n2
    obtain ⟨t1, t2, _⟩ := nttInv_spec (psi p I) h0 hW (scaleP p k) k _ lA (fun x _ => (n2 x).le)
    rw [j1]
    apply list_eq_of_res (q := p) _ _ (by rw [t1, lr]) (fun x hx => t2 x (by omega)) (fun x _ => cr x)
    intro x hx
    rw [t1] at hx
    exact L.inv_fw h0 hW _ (scale_inv M k hk) _ lA (fun x _ => (n2 x).le) (res p (residues p a)) (by rw [n1]; exact (nttFw_spec _ h0 hW k _ lr).2.2) x hx

theorem halfProd_get (M : Modulus p p0i) (t : List ℕ) (ct : CanonP p t) (hn v : ℕ) (hv : v < hn) :
    (halfProd t hn p p0i)[v]! < p ∧ (((halfProd t hn p p0i)[v]! : ℕ) : ZMod p) = (t[2 * v]! : ZMod p) * t[2 * v + 1]! := by
  have e : (halfProd t hn p p0i)[v]! = modpMontymul (modpMontymul t[2 * v + 0]! t[2 * v + 1]! p p0i) (modpR2 p p0i) p p0i := by
    unfold halfProd
    rw [getElem!_pos _ v (by simpa using hv)]; simp
  rw [e]
  have h1 := montymul_lt M _ _ (ct (2 * v + 0)) (ct (2 * v + 1))
  have h2 := cast_mm M _ _ (ct (2 * v + 0)) (ct (2 * v + 1))
  have h3 := modpR2_eq M
  have h4 := montymul_lt M _ _ h1 h3.1
  have h5 := cast_mm M _ _ h1 h3.1
  have hF : Fact p.Prime := ⟨M.prime⟩
  rw [h3.2, ← mul_assoc, h2] at h5
  exact ⟨h4, mul_right_cancel₀ (Rf_ne M) h5⟩

/-- The products of neighbours of the transform are the transform of the field norm. -/
theorem halfProd_norm (M : Modulus p p0i) {k : ℕ} {G : List ℕ} {ps' : ℕ → ℕ} (L : Law p (k + 1) (psi p G) ps') (hg : CanonP p G) (a : List ℤ) (la : a.length = 2 ^ (k + 1)) :
    halfProd (ntt2 (residues p a) G (k + 1) p p0i) (2 ^ k) p p0i = ntt2 (residues p (fieldNorm a)) G k p p0i := by
  have lN : (fieldNorm a).length = 2 ^ k := by rw [length_fieldNorm, la, pow_succ]; omega
  obtain ⟨l1, c1, e1⟩ := ntt_eval M L hg a la
  obtain ⟨l2, c2, e2⟩ := ntt_eval M (law_mono L) hg (fieldNorm a) lN
  have lH : (halfProd (ntt2 (residues p a) G (k + 1) p p0i) (2 ^ k) p p0i).length = 2 ^ k := by simp [halfProd]
  apply list_eq_of_res (q := p) _ _ (by rw [lH, l2]) (fun x hx => (halfProd_get M _ c1 _ x (by omega)).1) (fun x _ => c2 x)
  intro v hv
  rw [lH] at hv
  have hp : 2 ^ (k + 1) = 2 * 2 ^ k := by rw [pow_succ]; ring
  unfold res
  rw [(halfProd_get M _ c1 _ v hv).2, e1 (2 * v) (by omega), e1 (2 * v + 1) (by omega), e2 v hv]
  have n0 : node (fun i => (psi p G i : ZMod p)) (2 ^ (k + 1) + 2 * v) = psi p G (2 ^ k + v) := by
    unfold node; rw [if_pos (by omega), show (2 ^ (k + 1) + 2 * v) / 2 = 2 ^ k + v by omega]
  have n1 : node (fun i => (psi p G i : ZMod p)) (2 ^ (k + 1) + (2 * v + 1)) = -(psi p G (2 ^ k + v) : ZMod p) := by
    unfold node; rw [if_neg (by omega), show (2 ^ (k + 1) + (2 * v + 1)) / 2 = 2 ^ k + v by omega]
  have r1 := L.node_pow (2 * v) (by omega)
  rw [n0] at r1
  have pk := Nat.two_pow_pos k
  rw [n0, n1, ← L.sq (2 ^ k + v) (by omega) (by omega), ev_fieldNorm k a la _ r1]

/-- The tables of all sizes agree. -/
theorem tab_swap (M : Modulus p p0i) (k : ℕ) (hk : k + 1 ≤ 10) (gm igm gm' igm' : List ℕ) (hl : gm.length = 2 ^ (k + 1)) (hl' : igm.length = 2 ^ (k + 1)) (hm : gm'.length = 2 ^ k) (hm' : igm'.length = 2 ^ k) (g : ℕ)
    (hg : Root p g) (a : List ℤ) (la : a.length = 2 ^ k) :
    ntt2 (residues p a) (mkgm2 gm igm (k + 1) g p p0i).1 k p p0i = ntt2 (residues p a) (mkgm2 gm' igm' k g p p0i).1 k p p0i := by
  obtain ⟨_, _, t1⟩ := mkgm2_ok M (k + 1) hk gm igm hl hl' g hg
  obtain ⟨_, _, t2⟩ := mkgm2_ok M k (by omega) gm' igm' hm hm' g hg
  obtain ⟨L1, c1, _⟩ := law_mkgm2 M (k + 1) hk gm igm hl hl' g hg
  obtain ⟨L2, c2, _⟩ := law_mkgm2 M k (by omega) gm' igm' hm hm' g hg
  obtain ⟨l1, d1, e1⟩ := ntt_eval M (law_mono L1) c1 a la
  obtain ⟨l2, d2, e2⟩ := ntt_eval M L2 c2 a la
  generalize (mkgm2 gm igm (k + 1) g p p0i).1 = G1 at *
  generalize (mkgm2 gm' igm' k g p p0i).1 = G2 at *
  apply list_eq_of_res (q := p) _ _ (by rw [l1, l2]) (fun x _ => d1 x) (fun x _ => d2 x)
  intro x hx
  rw [l1] at hx
  unfold res
  rw [e1 x hx, e2 x hx]
  congr 1
  have hp : 2 ^ (k + 1) = 2 * 2 ^ k := by rw [pow_succ]; ring
  have key : ∀ j < 2 ^ k, (psi p G1 j : ZMod p) = psi p G2 j := by
    intro j hj
    rw [psi_of M G1 j _ (t1 j (by omega)).1, psi_of M G2 j _ (t2 j hj).1]
    unfold gk
    rw [← pow_mul, ← pow_mul, mul_comm, revk_mul (k + 1) hk j (by omega), mul_comm, revk_mul k (by omega) j hj]
  unfold node
  dsimp only
  rw [key _ (by omega)]

end Verif.CRef.Kg
