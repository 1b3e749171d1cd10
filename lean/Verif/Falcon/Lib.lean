import Verif.Falcon.NttLemmas
import Verif.NTT.Props
import Mathlib.FieldTheory.Finite.Basic
import Mathlib.Tactic.NormNum.Prime

/-! # A library satisfying the assumptions made of `polyntt`

This is not a model of code in the repository: it shows that the assumptions `Arith`, `InvLaw`, `NttLaw` can be met for every `n = 2^k`, `1 ≤ k ≤ 9`
(with the transforms of `ZKNOX_NTT_stateless.sol`), so that theorems assuming them are not vacuous. -/

namespace Verif.Falcon

open Verif Verif.Ring Verif.NTT Finset

def redN (a : List Int) : List Nat := a.map fun x => (x % 12289).toNat
def liftZ (a : List Nat) : List Int := List.map (fun x : Nat => (x : Int)) a

def lib (n : Nat) : PolyLib :=
  let ntt := fun a => liftZ (nttFw (fun j => psiRev[j]!) 12289 n (redN a))
  let intt := fun a => liftZ (nttInv (fun j => psiInvRev[j]!) 12289 (12289 - 12288 / n) n (redN a))
  let vm := fun a b => List.zipWith (fun x y : Int => x * y % 12289) a b
  let mul := fun a b => intt (vm (ntt a) (ntt b))
  let inverse := fun a => if (ntt a).any (· == 0) then none else some (intt ((ntt a).map fun x => x ^ 12287 % 12289))
  { mul := mul
    sub := fun a b => List.zipWith (fun x y : Int => (x - y) % 12289) a b
    div := fun a b => (inverse b).map (mul a)
    inverse := inverse
    ntt := ntt
    intt := intt
    vecMul := vm }

theorem zq_liftZ (a : List Nat) : zq (liftZ a) = toZ 12289 a := by
  unfold zq liftZ NTT.toZ; rw [List.map_map]; apply List.map_congr_left; intro x _; simp

theorem toZ_redN (a : List Int) : toZ 12289 (redN a) = zq a := by
  unfold zq redN NTT.toZ
  rw [List.map_map]
  apply List.map_congr_left
  intro x _
  show (((x % 12289).toNat : ℕ) : Zq) = (x : Zq)
  rw [← Int.cast_natCast, Int.toNat_of_nonneg (Int.emod_nonneg _ (by decide)), cast_emod]

@[simp] theorem length_redN (a : List Int) : (redN a).length = a.length := by simp [redN]
@[simp] theorem length_liftZ (a : List Nat) : (liftZ a).length = a.length := by simp [liftZ]

theorem reduced_liftZ {a : List Nat} {n : Nat} (hl : a.length = n) (h : ∀ x < n, a[x]! < 12289) : Reduced (liftZ a) := by
  intro x hx
  obtain ⟨y, hy, rfl⟩ := List.mem_map.1 hx
  have := mem_lt_of_get hl h y hy
  exact ⟨by positivity, by exact_mod_cast this⟩

theorem redN_lt (a : List Int) : ∀ x ∈ redN a, x < 12289 := by
  intro x hx
  obtain ⟨y, _, rfl⟩ := List.mem_map.1 hx
  have h1 := Int.emod_nonneg y (show (12289 : Int) ≠ 0 by decide)
  have h2 := Int.emod_lt_of_pos y (show (0 : Int) < 12289 by decide)
  omega

variable (k : Nat)

/-- the roots used by the transform -/
def wk (i : Nat) : Zq := node (fun i => ((psiRev[i]! : ℕ) : Zq)) (2 ^ k + i)

theorem nm1_ok (hk : k ≤ 9) : 2 ^ k * (12289 - 12288 / 2 ^ k) % 12289 = 1 := by
  have : ∀ k ≤ 9, 2 ^ k * (12289 - 12288 / 2 ^ k) % 12289 = 1 := by decide
  exact this k hk

theorem redN_liftZ (a : List Nat) (h : ∀ x ∈ a, x < 12289) : redN (liftZ a) = a := by
  unfold redN liftZ
  rw [List.map_map]
  conv_rhs => rw [← List.map_id a]
  apply List.map_congr_left
  intro x hx
  have := h x hx
  show ((x : Int) % 12289).toNat = x
  omega

theorem libNtt (h1 : 1 ≤ k) (hk : k ≤ 9) : NttLaw (lib (2 ^ k)) (2 ^ k) (wk k) where
  root i hi := (lawStateless k hk).node_pow i hi
  ntt a ha := by
    obtain ⟨f1, f2, f3⟩ := nttFw_spec (q := 12289) (fun j => psiRev[j]!) (by norm_num) qF_lt k (redN a) (by simpa using ha)
    refine ⟨by simpa [lib] using f1, reduced_liftZ f1 (f2 (by omega)), fun i hi => ?_⟩
    have e := (lawStateless k hk).fw_eval (by norm_num) qF_lt (redN a) (by simpa using ha) i hi
    rw [toZ_redN] at e
    unfold wk
    rw [← Polynomial.coe_aeval_eq_eval, aeval_toPoly, ← e]
    unfold res
    show (((liftZ _).getD i 0 : Int) : Zq) = _
    unfold liftZ
    rw [List.getD_eq_getElem?_getD, List.getElem?_map, List.getElem?_eq_getElem (by rw [f1]; exact hi), getElem!_pos _ i (by rw [f1]; exact hi)]
    simp
  intt a ha := by
    obtain ⟨g1, g2, _⟩ := nttInv_spec (q := 12289) (fun j => psiInvRev[j]!) (by norm_num) qF_lt (12289 - 12288 / 2 ^ k) k (redN a) (by simpa using ha)
      (fun x hx => (get_lt_of_mem (by simpa using ha) (redN_lt a) x hx).le)
    refine ⟨by simpa [lib] using g1, reduced_liftZ g1 g2, ?_⟩
    show zq (liftZ (nttFw _ 12289 (2 ^ k) (redN (liftZ _)))) = _
    rw [zq_liftZ, redN_liftZ _ (mem_lt_of_get g1 g2)]
    obtain ⟨f1, f2, f3⟩ := nttFw_spec (q := 12289) (fun j => psiRev[j]!) (by norm_num) qF_lt k _ g1
    apply toZ_eq_of_res _ _ (by rw [f1]; simp [ha])
    intro x hx
    rw [f1] at hx
    rw [(lawStateless k hk).fw_inv (by norm_num) qF_lt _ (cast_inv k _ (nm1_ok k hk)) (redN a) (by simpa using ha)
      (fun x hx => (get_lt_of_mem (by simpa using ha) (redN_lt a) x hx).le) x hx, ← toZ_redN, at'_toZ _ _ _ (by simpa [ha] using hx)]
  left a ha := by
    obtain ⟨f1, f2, f3⟩ := nttFw_spec (q := 12289) (fun j => psiRev[j]!) (by norm_num) qF_lt k (redN a) (by simpa using ha)
    show zq (liftZ (nttInv _ 12289 _ (2 ^ k) (redN (liftZ _)))) = _
    rw [zq_liftZ, redN_liftZ _ (mem_lt_of_get f1 (f2 (by omega)))]
    have := (lawStateless k hk).roundTrip (12289 - 12288 / 2 ^ k) (nm1_ok k hk) (redN a) (by simpa using ha) (redN_lt a)
    rw [length_redN, ha, f1] at this
    rw [this, toZ_redN]
  vec a b ha hb := by
    refine ⟨by simp [lib, ha, hb], ?_, ?_⟩
    · intro x hx
      rw [show (lib (2 ^ k)).vecMul a b = List.zipWith (fun x y : Int => x * y % 12289) a b from rfl, List.mem_iff_getElem] at hx
      obtain ⟨i, hi, rfl⟩ := hx
      rw [List.getElem_zipWith]
      exact ⟨Int.emod_nonneg _ (by decide), Int.emod_lt_of_pos _ (by decide)⟩
    · show zq (List.zipWith (fun x y : Int => x * y % 12289) a b) = _
      unfold zq
      apply List.ext_getElem (by simp)
      intro i h1 h2
      rw [List.getElem_map, List.getElem_zipWith, List.getElem_zipWith, List.getElem_map, List.getElem_map, cast_emod, Int.cast_mul]

theorem libInverse (h1 : 1 ≤ k) (hk : k ≤ 9) (a : List Int) (ha : a.length = 2 ^ k) :
    (∀ c, (lib (2 ^ k)).inverse a = some c → c.length = 2 ^ k ∧ negMul (2 ^ k) (zq a) (zq c) = one (2 ^ k)) ∧
    ((∃ i : List Zq, i.length = 2 ^ k ∧ negMul (2 ^ k) (zq a) i = one (2 ^ k)) → ∃ c, (lib (2 ^ k)).inverse a = some c) := by
  have L := libNtt k h1 hk
  have hn : 0 < 2 ^ k := Nat.two_pow_pos k
  have e : (lib (2 ^ k)).inverse a = if ((lib (2 ^ k)).ntt a).any (· == 0) then none
    else some ((lib (2 ^ k)).intt (((lib (2 ^ k)).ntt a).map fun x => x ^ 12287 % 12289)) := rfl
  obtain ⟨n1, n2, n3⟩ := L.ntt a ha
  by_cases hz : ((lib (2 ^ k)).ntt a).any (· == 0) = true
  · rw [e, if_pos hz]
    refine ⟨fun c h => (by cases h), fun hu => ?_⟩
    exfalso
    obtain ⟨x, hx, h0⟩ := List.any_eq_true.1 hz
    exact (L.unit_iff hn a ha).2 hu x hx (by simpa using h0)
  · rw [e, if_neg hz]
    refine ⟨fun c h => ?_, fun _ => ⟨_, rfl⟩⟩
    simp only [Option.some.injEq] at h
    subst h
    have hlen : (((lib (2 ^ k)).ntt a).map fun x => x ^ 12287 % 12289).length = 2 ^ k := by simpa using n1
    obtain ⟨i1, _, _⟩ := L.intt _ hlen
    refine ⟨i1, ?_⟩
    apply L.product_one hn a _ ha i1
    intro i hi
    rw [L.ev_intt _ hlen i hi, ← L.ev_ntt a ha i hi]
    have hi' : i < ((lib (2 ^ k)).ntt a).length := by omega
    rw [List.getD_eq_getElem?_getD, List.getD_eq_getElem?_getD, List.getElem?_map, List.getElem?_eq_getElem hi']
    simp only [Option.map_some, Option.getD_some]
    have h0 : ((lib (2 ^ k)).ntt a)[i] ≠ 0 := by
      intro h
      apply hz
      rw [List.any_eq_true]
      exact ⟨_, List.getElem_mem hi', by simpa using h⟩
    have hne : ((((lib (2 ^ k)).ntt a)[i] : Int) : Zq) ≠ 0 := by
      obtain ⟨b1, b2⟩ := n2 _ (List.getElem_mem hi')
      intro h
      rw [ZMod.intCast_zmod_eq_zero_iff_dvd] at h
      have := Int.eq_zero_of_dvd_of_nonneg_of_lt b1 (by exact_mod_cast b2) h
      exact h0 this
    rw [cast_emod, Int.cast_pow, ← pow_succ']
    exact ZMod.pow_card_sub_one_eq_one hne

theorem libArith (h1 : 1 ≤ k) (hk : k ≤ 9) : Arith (lib (2 ^ k)) (2 ^ k) := by
  have L := libNtt k h1 hk
  have hn : 0 < 2 ^ k := Nat.two_pow_pos k
  have hmul : ∀ a b, a.length = 2 ^ k → b.length = 2 ^ k → ((lib (2 ^ k)).mul a b).length = 2 ^ k ∧ zq ((lib (2 ^ k)).mul a b) = negMul (2 ^ k) (zq a) (zq b) := by
    intro a b ha hb
    obtain ⟨a1, _, _⟩ := L.ntt a ha
    obtain ⟨b1, _, _⟩ := L.ntt b hb
    obtain ⟨v1, _, v3⟩ := L.vec _ _ a1 b1
    obtain ⟨i1, _, _⟩ := L.intt _ v1
    refine ⟨i1, ?_⟩
    rw [← zq_negMul _ _ _ ha hb hn]
    apply L.inj _ _ i1 (by simp)
    intro i hi
    show ev (wk k i) ((lib (2 ^ k)).intt ((lib (2 ^ k)).vecMul ((lib (2 ^ k)).ntt a) ((lib (2 ^ k)).ntt b))) = _
    rw [L.ev_intt _ v1 i hi, ev_negMul _ _ (L.root i hi) _ _ ha hb, ← L.ev_ntt a ha i hi, ← L.ev_ntt b hb i hi]
    exact vec_get v3 i (by omega) (by omega)
  refine ⟨hmul, ?_, ?_⟩
  · intro a b ha hb
    refine ⟨by simp [lib, ha, hb], ?_⟩
    show zq (List.zipWith (fun x y : Int => (x - y) % 12289) a b) = _
    unfold zq
    apply List.ext_getElem (by simp)
    intro i h1 h2
    rw [List.getElem_map, List.getElem_zipWith, List.getElem_zipWith, List.getElem_map, List.getElem_map, cast_emod, Int.cast_sub]
  · intro a b c ha hb h
    have h : ((lib (2 ^ k)).inverse b).map ((lib (2 ^ k)).mul a) = some c := h
    obtain ⟨d, hd, rfl⟩ := Option.map_eq_some_iff.1 h
    obtain ⟨d1, d2⟩ := (libInverse k h1 hk b hb).1 d hd
    obtain ⟨m1, m2⟩ := hmul a d ha d1
    refine ⟨m1, ?_, zq d, by simpa using d1, d2⟩
    rw [m2]
    apply list_eq_of_ev (2 ^ k) hn _ _ (by simp) (by simpa using ha)
    have u := congrArg (ev (rt Zq (2 ^ k))) d2
    rw [ev_negMul _ _ (rt_pow _) _ _ (by simpa using hb) (by simpa using d1), one, ev_const, map_one] at u
    rw [ev_negMul _ _ (rt_pow _) _ _ (by simp) (by simpa using hb), ev_negMul _ _ (rt_pow _) _ _ (by simpa using ha) (by simpa using d1), mul_assoc,
      mul_comm (ev (rt Zq (2 ^ k)) (zq d)), u, mul_one]

theorem libInv (h1 : 1 ≤ k) (hk : k ≤ 9) : InvLaw (lib (2 ^ k)) (2 ^ k) where
  div_some a b _ hb hu := by
    obtain ⟨c, hc⟩ := (libInverse k h1 hk b hb).2 hu
    refine ⟨(lib (2 ^ k)).mul a c, ?_⟩
    show ((lib (2 ^ k)).inverse b).map ((lib (2 ^ k)).mul a) = _
    rw [hc]; rfl
  inv_some b hb hu := (libInverse k h1 hk b hb).2 hu
  inv b c hb h := (libInverse k h1 hk b hb).1 c h

end Verif.Falcon
