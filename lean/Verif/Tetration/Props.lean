import Verif.Tetration.Verify
import Verif.Contract.Props

/-! # C73 to C75: the external recursive verifier -/

namespace Verif.Tetration

open Verif Verif.Ring Verif.Falcon Verif.Hash
open Verif.NTT (addmod mulmod IsProduct length_toZ)
open Polynomial

/-! ## C73: the transforms -/

/-- The table of inverses is right for every residue but zero. -/
theorem C73_inverse_table (x : Nat) (h0 : 0 < x) (h : x < 12289) : ∃ y, invAt x = .ok y ∧ y < 12289 ∧ x * y % 12289 = 1 := by
  obtain ⟨y, h1, h2, h3⟩ := invAt_spec x h0 h
  exact ⟨y, h1, h3, h2⟩

/-- **C73, transforms**: in every size `2, 4, ..., 512` there are as many different roots of `x^n = -1` as coefficients; `nTT` of any words lists the values of the polynomial
at these roots, reduced; `iNTT` of any words at most `q` is the reduced polynomial with these values. -/
theorem C73_transforms (k : Nat) (h1 : 1 ≤ k) (h9 : k ≤ 9) : ∃ ω : Nat → ZMod 12289,
    (∀ x < 2 ^ k, ω x ^ 2 ^ k = -1) ∧ (∀ x < 2 ^ k, ∀ y < 2 ^ k, ω x = ω y → x = y) ∧
    (∀ a : List Nat, a.length = 2 ^ k → ∃ b, nTT a = .ok b ∧ b.length = 2 ^ k ∧ (∀ x ∈ b, x < 12289) ∧
      ∀ x < 2 ^ k, ((b.getD x 0 : Nat) : ZMod 12289) = (toPoly (NTT.toZ 12289 a)).eval (ω x)) ∧
    (∀ b : List Nat, b.length = 2 ^ k → (∀ x ∈ b, x ≤ 12289) → ∃ a, iNTT b = .ok a ∧ a.length = 2 ^ k ∧ (∀ x ∈ a, x < 12289) ∧
      ∀ x < 2 ^ k, (toPoly (NTT.toZ 12289 a)).eval (ω x) = ((b.getD x 0 : Nat) : ZMod 12289)) := by
  refine ⟨pt k, pt_pow k h1 h9, fun x hx y hy h => pt_inj h1 h9 hx hy h, fun a la => ?_, fun b lb hb => ?_⟩
  · obtain ⟨b, e, l, r, v⟩ := nTT_ok h1 h9 a (by omega) (by have := Nat.two_pow_pos k; omega)
    refine ⟨b, e, l, r, fun x hx => ?_⟩
    have := v x hx
    rwa [List.take_of_length_le (by omega)] at this
  · have e : 2 ^ k = 2 * 2 ^ (k - 1) := by rw [← pow_succ']; congr 1; omega
    exact iNTT_ok h1 h9 b lb (fun i hi => hb _ (getD_mem (by omega)))

/-- **C73, round trips**: up to reduction each transform undoes the other. -/
theorem C73_roundtrip (k : Nat) (h1 : 1 ≤ k) (h9 : k ≤ 9) (a : List Nat) (la : a.length = 2 ^ k) :
    (nTT a >>= iNTT) = .ok (a.map (· % 12289)) ∧ ((∀ x ∈ a, x ≤ 12289) → (iNTT a >>= nTT) = .ok (a.map (· % 12289))) := by
  obtain ⟨ω, r1, r2, fw, bw⟩ := C73_transforms k h1 h9
  have hm : ∀ x ∈ a.map (· % 12289), x < 12289 := by
    intro x hx
    obtain ⟨y, _, rfl⟩ := List.mem_map.1 hx
    omega
  have hz : NTT.toZ 12289 (a.map (· % 12289)) = NTT.toZ 12289 a := by
    unfold NTT.toZ
    rw [List.map_map]
    apply List.map_congr_left
    intro x _
    simp
  have hc : ∀ i, cf (a.map (· % 12289)) i = cf a i := by intro i; rw [← getD_toZ, ← getD_toZ, hz]
  constructor
  · obtain ⟨b, e, l, r, v⟩ := nTT_ok h1 h9 a (by omega) (by have := Nat.two_pow_pos k; omega)
    have e2 : 2 ^ k = 2 * 2 ^ (k - 1) := by rw [← pow_succ']; congr 1; omega
    obtain ⟨d, e', l', r', v'⟩ := iNTT_ok h1 h9 b l (fun i hi => (r _ (getD_mem (by omega))).le)
    rw [e]
    show iNTT b = _
    rw [e']
    congr 1
    have hd : NTT.toZ 12289 d = NTT.toZ 12289 a := by
      apply eq_of_values h1 h9 _ _ (by simpa using l') (by simpa using la)
      intro x hx
      rw [v' x hx, v x hx, List.take_of_length_le (by omega)]
    apply eq_of_cf (by simp; omega) r' hm
    intro i _
    rw [hc, ← getD_toZ, ← getD_toZ, hd]
  · intro hb
    have e2 : 2 ^ k = 2 * 2 ^ (k - 1) := by rw [← pow_succ']; congr 1; omega
    obtain ⟨d, e', l', r', v'⟩ := iNTT_ok h1 h9 a la (fun i hi => hb _ (getD_mem (by omega)))
    obtain ⟨b, e, l, r, v⟩ := nTT_ok h1 h9 d (by omega) (by have := Nat.two_pow_pos k; omega)
    rw [e']
    show nTT d = _
    rw [e]
    congr 1
    apply eq_of_cf (by simp; omega) r hm
    intro x hx
    rw [hc, v x (by omega), List.take_of_length_le (by omega), v' x (by omega)]

/-- **C73, product**: `mulZQ` is multiplication modulo `x^n + 1`, for any words. -/
theorem C73_mul (k : Nat) (h1 : 1 ≤ k) (h9 : k ≤ 9) (a b : List Nat) (la : a.length = 2 ^ k) (lb : b.length = 2 ^ k) :
    ∃ c, mulZQ a b = .ok c ∧ IsProduct 12289 a b c := by
  obtain ⟨x, e, l, r, v⟩ := nTT_ok h1 h9 a (by omega) (by have := Nat.two_pow_pos k; omega)
  obtain ⟨y, e', l', r', v'⟩ := nTT_ok h1 h9 b (by omega) (by have := Nat.two_pow_pos k; omega)
  rw [List.take_of_length_le (by omega)] at v v'
  obtain ⟨z, c, m1, m2, m3, m4, m5⟩ := half h1 h9 a x y (NTT.toZ 12289 b) la (by simpa using lb) l l' v v'
  refine ⟨c, ?_, by omega, m4, by rw [la]; exact m5⟩
  unfold mulZQ
  rw [e, e']
  simp only [bind, Except.bind]
  rw [m1]; exact m2

/-- `mulZQ_opt` with the transform of the second factor gives the same. -/
theorem C73_mul_opt (a b y : List Nat) (hy : nTT b = .ok y) : mulZQopt a y = mulZQ a b := by
  unfold mulZQ mulZQopt
  rw [hy]
  rfl

/-- `mulZQ_opt` with any second argument of the right length: it is the transform of exactly one reduced polynomial, up to reduction, and the result is the product with that polynomial. -/
theorem C73_mul_opt_any (k : Nat) (h1 : 1 ≤ k) (h9 : k ≤ 9) (a y : List Nat) (la : a.length = 2 ^ k) (ly : y.length = 2 ^ k) :
    ∃ b c, nTT b = .ok (y.map (· % 12289)) ∧ b.length = 2 ^ k ∧ (∀ x ∈ b, x < 12289) ∧ mulZQopt a y = .ok c ∧ IsProduct 12289 a b c := by
  have hm : ∀ x ∈ y.map (· % 12289), x < 12289 := by
    intro x hx
    obtain ⟨t, _, rfl⟩ := List.mem_map.1 hx
    omega
  have ly' : (y.map (· % 12289)).length = 2 ^ k := by simpa using ly
  have e2 : 2 ^ k = 2 * 2 ^ (k - 1) := by rw [← pow_succ']; congr 1; omega
  obtain ⟨b, eb, lb, rb, vb⟩ := iNTT_ok h1 h9 _ ly' (fun i hi => (hm _ (getD_mem (by omega))).le)
  have rt := (C73_roundtrip k h1 h9 (y.map (· % 12289)) ly').2 (fun x hx => (hm x hx).le)
  rw [eb] at rt
  have rt : nTT b = .ok (y.map (· % 12289)) := by
    rw [show (y.map (· % 12289)).map (· % 12289) = y.map (· % 12289) by rw [List.map_map]; apply List.map_congr_left; intro x _; simp] at rt
    exact rt
  obtain ⟨x, e, l, r, v⟩ := nTT_ok h1 h9 a (by omega) (by have := Nat.two_pow_pos k; omega)
  rw [List.take_of_length_le (by omega)] at v
  have hc : ∀ i, cf (y.map (· % 12289)) i = cf y i := by
    intro i
    rw [← getD_toZ, ← getD_toZ]
    congr 1
    unfold NTT.toZ
    rw [List.map_map]
    apply List.map_congr_left
    intro x _
    simp
  obtain ⟨z, c, m1, m2, m3, m4, m5⟩ := half h1 h9 a x y (NTT.toZ 12289 b) la (by simpa using lb) l ly v (fun i hi => by rw [vb i hi, hc])
  refine ⟨b, c, rt, lb, rb, ?_, by omega, m4, by rw [la]; exact m5⟩
  unfold mulZQopt
  rw [e]
  simp only [bind, Except.bind]
  rw [m1]; exact m2

/-- **C73, domain of `nTT`**: it succeeds exactly for lengths in `[2^k, 3/2 · 2^k)`, `1 ≤ k ≤ 9`, and then transforms the first `2^k` words, ignoring the others; every other length panics. -/
theorem C73_domain_forward (a : List Nat) :
    (∀ k, 1 ≤ k → k ≤ 9 → 2 ^ k ≤ a.length → 2 * a.length < 3 * 2 ^ k → nTT a = nTT (a.take (2 ^ k)) ∧ ∃ b, nTT a = .ok b ∧ b.length = 2 ^ k) ∧
    ((∀ k, 1 ≤ k → k ≤ 9 → ¬ (2 ^ k ≤ a.length ∧ 2 * a.length < 3 * 2 ^ k)) → nTT a = .error (.revert "panic")) := by
  refine ⟨fun k h1 h9 l1 l2 => ?_, fun h => nttLoop_panic _ a (by omega) h⟩
  obtain ⟨b, e, l, r, v⟩ := nTT_ok h1 h9 a l1 l2
  have lt : (a.take (2 ^ k)).length = 2 ^ k := by rw [List.length_take]; omega
  obtain ⟨b', e', l', r', v'⟩ := nTT_ok h1 h9 (a.take (2 ^ k)) (by omega) (by have := Nat.two_pow_pos k; omega)
  refine ⟨?_, b, e, l⟩
  rw [e, e']
  congr 1
  apply eq_of_cf (by omega) r r'
  intro x hx
  rw [v x (by omega), v' x (by omega), List.take_take, Nat.min_self]

/-- **C73, domain of `iNTT`**: it succeeds exactly for lengths `2, 4, ..., 512` with every word in an odd position at most `q`; otherwise it panics. -/
theorem C73_domain_inverse (c : List Nat) :
    ((∃ d, iNTT c = .ok d) ↔ ∃ k, 1 ≤ k ∧ k ≤ 9 ∧ c.length = 2 ^ k ∧ ∀ i < 2 ^ (k - 1), c.getD (2 * i + 1) 0 ≤ 12289) ∧
    ((¬ ∃ d, iNTT c = .ok d) → iNTT c = .error (.revert "panic")) := by
  have key : (∃ k, 1 ≤ k ∧ k ≤ 9 ∧ c.length = 2 ^ k ∧ ∀ i < 2 ^ (k - 1), c.getD (2 * i + 1) 0 ≤ 12289) → ∃ d, iNTT c = .ok d := by
    rintro ⟨k, h1, h9, l, h⟩
    obtain ⟨d, e, _⟩ := iNTT_ok h1 h9 c l h
    exact ⟨d, e⟩
  refine ⟨⟨fun ⟨d, hd⟩ => ?_, key⟩, fun h => inttLoop_panic c.length c (fun h' => h (key h'))⟩
  by_contra hn
  have : iNTT c = .error (.revert "panic") := inttLoop_panic c.length c hn
  rw [this] at hd
  cases hd

/-- **C73, `addZQ` and `subZQ`**: equal lengths are required; the difference also needs the words of the second argument to be at most `q` and panics otherwise. -/
theorem C73_add (a b : List Nat) :
    (a.length = b.length → ∃ d, addZQ a b = .ok d ∧ d.length = a.length ∧ (∀ x ∈ d, x < 12289) ∧ NTT.toZ 12289 d = List.zipWith (· + ·) (NTT.toZ 12289 a) (NTT.toZ 12289 b)) ∧
    (a.length ≠ b.length → addZQ a b = .error .assertError) := by
  refine ⟨fun h => ⟨_, addZQ_ok h, by simp, ?_, ?_⟩, fun h => if_neg h⟩
  · intro x hx
    obtain ⟨i, _, rfl⟩ := List.mem_map.1 hx
    exact NTT.addmod_lt q_pos _ _
  · apply List.ext_getElem
    · simp [h]
    intro i h1 h2
    have hi : i < a.length := by simpa using h1
    have g : ∀ (l : List Nat) (h : i < (NTT.toZ 12289 l).length) (h' : i < l.length), (NTT.toZ 12289 l)[i] = (l[i] : ZMod 12289) := by
      intro l h h'; simp [NTT.toZ]
    rw [List.getElem_zipWith, g _ _ (by simpa using hi), g _ _ hi, g _ _ (by omega), List.getElem_map, List.getElem_range, NTT.cast_addmod q_pos,
      List.getD_eq_getElem?_getD, List.getD_eq_getElem?_getD, List.getElem?_eq_getElem hi, List.getElem?_eq_getElem (by omega)]
    rfl

theorem C73_sub (a b : List Nat) :
    (a.length = b.length → (∀ x ∈ b, x ≤ 12289) → ∃ d, subZQ a b = .ok d ∧ d.length = a.length ∧ (∀ x ∈ d, x < 12289) ∧
      NTT.toZ 12289 d = List.zipWith (· - ·) (NTT.toZ 12289 a) (NTT.toZ 12289 b)) ∧
    (a.length = b.length → (∃ x ∈ b, 12289 < x) → subZQ a b = .error (.revert "panic")) ∧
    (a.length ≠ b.length → subZQ a b = .error .assertError) := by
  refine ⟨subZQ_ok, fun h hb => ?_, fun h => if_neg h⟩
  unfold subZQ
  rw [if_pos h, negZQ_panic hb]; rfl

example : (nTT [1, 2, 3, 4] >>= iNTT) = .ok [1, 2, 3, 4] := (C73_roundtrip 2 (by omega) (by omega) [1, 2, 3, 4] rfl).1
example : mulZQ [1, 2] [3, 4] = .ok [12284, 10] := by decide +kernel
example : nTT [1, 2, 3, 4, 99] = nTT [1, 2, 3, 4] := ((C73_domain_forward [1, 2, 3, 4, 99]).1 2 (by omega) (by omega) (by decide) (by decide)).1

/-! ## C74: the accepted set -/

/-- The verifier returns (the zero address) instead of reverting. -/
def Accepts (H : Bytes → Bytes) (msgs salt : Bytes) (s1 : List Int) (h : List Nat) : Prop := ∃ fuel, verify H false msgs salt s1 h fuel = some (.ok 0)

/-- `verify_nttpub` returns. -/
def AcceptsNtt (H : Bytes → Bytes) (msgs salt : Bytes) (s1 : List Int) (y : List Nat) : Prop := ∃ fuel, verify H true msgs salt s1 y fuel = some (.ok 0)

/-- A short enough preimage of the point of `msgs ‖ salt`, every coefficient of the signature being in `[-q, q]`. -/
def Short (H : Bytes → Bytes) (msgs salt : Bytes) (s1 : List Int) (h : List Nat) : Prop :=
  s1.length = 512 ∧ h.length = 512 ∧ (∀ c ∈ s1, -12289 ≤ c ∧ c ≤ 12289) ∧
    ∃ point s0, IsPoint (tetrByte H (msgs ++ salt)) 512 point ∧ IsPreimage 512 (ints h) (ints point) s0 s1 ∧ normSq s0 + normSq (s1.map fun c => Int.bmod c 12289) < 34034726

theorem toZ_conv {s1 : List Int} (hr : ∀ c ∈ s1, -12289 ≤ c ∧ c ≤ 12289) : NTT.toZ 12289 (s1.map conv) = zq s1 := by
  unfold NTT.toZ zq
  rw [List.map_map]
  apply List.map_congr_left
  intro c hc
  have := (conv_small (hr c hc)).2.1
  rw [Function.comp_apply, ← Int.cast_natCast, ZMod.intCast_eq_intCast_iff]
  exact this

open Classical in
/-- What `verify` does once the hash is known. -/
theorem verify_eq (H : Bytes → Bytes) (msgs salt : Bytes) (s1 : List Int) (h : List Nat) (fuel : Nat) (point : List Nat) (hw : ∀ c ∈ s1, -2 ^ 255 ≤ c)
    (l1 : s1.length = 512) (lh : h.length = 512) (lp : point.length = 512) (hp : Hash.Sol.hashToPointTETRATION H salt msgs fuel = some point) :
    verify H false msgs salt s1 h fuel = some (if ∀ c ∈ s1, -12289 ≤ c ∧ c ≤ 12289 then
      (if ∃ s0, IsPreimage 512 (ints h) (ints point) s0 s1 ∧ normSq s0 + normSq (s1.map fun c => Int.bmod c 12289) < 34034726 then .ok 0 else .error (.revert "Signature is invalid"))
      else .error (.revert "panic")) := by
  obtain ⟨p, e, i1, i2, i3⟩ := C73_mul 9 (by omega) (by omega) (s1.map conv) h (by rw [List.length_map, l1]; norm_num) (by rw [lh]; norm_num)
  rw [List.length_map, l1] at i1 i3
  have lX : (s1.map conv).length = 512 := by rw [List.length_map, l1]
  unfold verify
  rw [if_neg (by omega), if_neg (by omega), hp]
  simp only [bind, Except.bind, Bool.false_eq_true, if_false]
  rw [e]
  dsimp only
  congr 1
  by_cases hr : ∀ c ∈ s1, -12289 ≤ c ∧ c ≤ 12289
  · rw [if_pos hr, decide_ok (h := h) (s1 := s1) lp i1 i2 lX ?_ lh l1 (by rw [i3, toZ_conv hr, zq_ints]) ?_]
    · intro x hx
      obtain ⟨c, hc, rfl⟩ := List.mem_map.1 hx
      exact (conv_small (hr c hc)).1
    · rw [List.map_map]
      apply List.map_congr_left
      intro c hc
      rw [Function.comp_apply]
      exact (conv_small (hr c hc)).2.2
  · rw [if_neg hr, decide_panic lp i1 i2 lX]
    simp only [not_forall] at hr
    obtain ⟨c, hc, hb⟩ := hr
    exact ⟨conv c, List.mem_map.2 ⟨c, hc, rfl⟩, conv_big (hw c hc) hb⟩

/-- **C74**: the verifier accepts exactly the short preimages of the point hashed from `msgs ‖ salt`, the coefficients of the signature being allowed in `[-q, q]` and centred for the norm. -/
theorem C74_accepts_iff (H : Bytes → Bytes) (hH : ∀ x, (H x).length = 32) (hb : ∀ x, IsBytes (H x)) (msgs salt : Bytes) (s1 : List Int) (h : List Nat) (hw : ∀ c ∈ s1, -2 ^ 255 ≤ c) :
    Accepts H msgs salt s1 h ↔ Short H msgs salt s1 h := by
  constructor
  · rintro ⟨fuel, hv⟩
    have lh : h.length = 512 := by
      by_contra hn
      unfold verify at hv
      rw [if_pos hn] at hv; cases hv
    have l1 : s1.length = 512 := by
      by_contra hn
      unfold verify at hv
      rw [if_neg (by omega), if_pos hn] at hv; cases hv
    rcases hp : Hash.Sol.hashToPointTETRATION H salt msgs fuel with _ | point
    · unfold verify at hv
      rw [if_neg (by omega), if_neg (by omega), hp] at hv; cases hv
    have ip := (tetr_iff hH hb salt msgs point).1 ⟨fuel, hp⟩
    have lp := (C22_point ip).1
    rw [verify_eq H msgs salt s1 h fuel point hw l1 lh lp hp] at hv
    by_cases hr : ∀ c ∈ s1, -12289 ≤ c ∧ c ≤ 12289
    · rw [if_pos hr] at hv
      by_cases hs : ∃ s0, IsPreimage 512 (ints h) (ints point) s0 s1 ∧ normSq s0 + normSq (s1.map fun c => Int.bmod c 12289) < 34034726
      · obtain ⟨s0, h1, h2⟩ := hs
        exact ⟨l1, lh, hr, point, s0, ip, h1, h2⟩
      · rw [if_neg hs] at hv; cases hv
    · rw [if_neg hr] at hv; cases hv
  · rintro ⟨l1, lh, hr, point, s0, ip, h1, h2⟩
    obtain ⟨fuel, hp⟩ := (tetr_iff hH hb salt msgs point).2 ip
    refine ⟨fuel, ?_⟩
    rw [verify_eq H msgs salt s1 h fuel point hw l1 lh (C22_point ip).1 hp, if_pos hr, if_pos ⟨s0, h1, h2⟩]

/-- Once the hash ends, everything else reverts: the verifier never returns anything but the zero address. -/
theorem C74_otherwise_reverts (H : Bytes → Bytes) (hH : ∀ x, (H x).length = 32) (hb : ∀ x, IsBytes (H x)) (msgs salt : Bytes) (s1 : List Int) (h : List Nat) (hw : ∀ c ∈ s1, -2 ^ 255 ≤ c)
    (fuel : Nat) (r : Except Err Nat) (hv : verify H false msgs salt s1 h fuel = some r) : (r = .ok 0 ∧ Short H msgs salt s1 h) ∨ (∃ why, r = .error (.revert why)) ∧ ¬ Short H msgs salt s1 h := by
  by_cases ha : Short H msgs salt s1 h
  · left
    refine ⟨?_, ha⟩
    obtain ⟨l1, lh, hr, point, s0, ip, h1, h2⟩ := ha
    rcases hp : Hash.Sol.hashToPointTETRATION H salt msgs fuel with _ | point'
    · unfold verify at hv
      rw [if_neg (by omega), if_neg (by omega), hp] at hv; cases hv
    have ip' := (tetr_iff hH hb salt msgs point').1 ⟨fuel, hp⟩
    obtain rfl : point' = point := (C22_point ip).2.2.2 _ ip'
    rw [verify_eq H msgs salt s1 h fuel point' hw l1 lh (C22_point ip).1 hp, if_pos hr, if_pos ⟨s0, h1, h2⟩] at hv
    cases hv; rfl
  · right
    refine ⟨?_, ha⟩
    by_cases lh : h.length = 512
    · by_cases l1 : s1.length = 512
      · rcases hp : Hash.Sol.hashToPointTETRATION H salt msgs fuel with _ | point
        · unfold verify at hv
          rw [if_neg (by omega), if_neg (by omega), hp] at hv; cases hv
        have ip := (tetr_iff hH hb salt msgs point).1 ⟨fuel, hp⟩
        rw [verify_eq H msgs salt s1 h fuel point hw l1 lh (C22_point ip).1 hp] at hv
        by_cases hr : ∀ c ∈ s1, -12289 ≤ c ∧ c ≤ 12289
        · rw [if_pos hr] at hv
          by_cases hs : ∃ s0, IsPreimage 512 (ints h) (ints point) s0 s1 ∧ normSq s0 + normSq (s1.map fun c => Int.bmod c 12289) < 34034726
          · obtain ⟨s0, h1, h2⟩ := hs
            exact absurd ⟨l1, lh, hr, point, s0, ip, h1, h2⟩ ha
          · rw [if_neg hs] at hv; cases hv; exact ⟨_, rfl⟩
        · rw [if_neg hr] at hv; cases hv; exact ⟨_, rfl⟩
      · unfold verify at hv
        rw [if_neg (by omega), if_pos l1] at hv; cases hv; exact ⟨_, rfl⟩
    · unfold verify at hv
      rw [if_pos lh] at hv; cases hv; exact ⟨_, rfl⟩

/-- `verify_nttpub` with the transform of the key decides as `verify` with the key. -/
theorem C74_nttpub (H : Bytes → Bytes) (msgs salt : Bytes) (s1 : List Int) (h y : List Nat) (hl : h.length = 512) (hy : nTT h = .ok y) (fuel : Nat) :
    verify H true msgs salt s1 y fuel = verify H false msgs salt s1 h fuel := by
  obtain ⟨b, e, l, -, -⟩ := nTT_ok (k := 9) (by omega) (by omega) h (by rw [hl]; norm_num) (by rw [hl]; norm_num)
  rw [hy] at e
  cases e
  unfold verify
  rw [if_neg (show ¬ y.length ≠ 512 by rw [l]; norm_num), if_neg (show ¬ h.length ≠ 512 by omega)]
  simp only [Bool.false_eq_true, if_false, if_true, C73_mul_opt _ h y hy]

/-- **C74, malleability**: replacing a coefficient by another one of the same residue in `[-q, q]` changes nothing; every coefficient has at least one other representative. -/
theorem C74_malleable (H : Bytes → Bytes) (hH : ∀ x, (H x).length = 32) (hb : ∀ x, IsBytes (H x)) (msgs salt : Bytes) (s1 s1' : List Int) (h : List Nat)
    (hr : ∀ c ∈ s1, -12289 ≤ c ∧ c ≤ 12289) (hr' : ∀ c ∈ s1', -12289 ≤ c ∧ c ≤ 12289) (hz : zq s1 = zq s1') : Accepts H msgs salt s1 h ↔ Accepts H msgs salt s1' h := by
  have hl : s1.length = s1'.length := by rw [← length_zq, hz, length_zq]
  have hm : (s1.map fun c => Int.bmod c 12289) = s1'.map fun c => Int.bmod c 12289 := by
    apply List.ext_getElem (by simpa using hl)
    intro i h1 h2
    simp only [List.getElem_map]
    have g : (zq s1)[i]? = (zq s1')[i]? := by rw [hz]
    unfold zq at g
    rw [List.getElem?_map, List.getElem?_map, List.getElem?_eq_getElem (by simpa using h1), List.getElem?_eq_getElem (by simpa using h2), Option.map_some, Option.map_some, Option.some.injEq,
      ZMod.intCast_eq_intCast_iff] at g
    have g : s1[i]'(by simpa using h1) % 12289 = s1'[i]'(by simpa using h2) % 12289 := g
    rw [Contract.bmod_q, Contract.bmod_q]
    omega
  rw [C74_accepts_iff H hH hb _ _ _ _ (fun c hc => by have := hr c hc; omega), C74_accepts_iff H hH hb _ _ _ _ (fun c hc => by have := hr' c hc; omega)]
  unfold Short IsPreimage
  rw [hl, hm, hz]
  constructor
  · rintro ⟨a, b, _, c⟩; exact ⟨a, b, hr', c⟩
  · rintro ⟨a, b, _, c⟩; exact ⟨a, b, hr, c⟩

theorem C74_other_representative (c : Int) (h : -12289 ≤ c ∧ c ≤ 12289) : ∃ c', c' ≠ c ∧ (-12289 ≤ c' ∧ c' ≤ 12289) ∧ (c' : ZMod 12289) = (c : ZMod 12289) := by
  by_cases hc : c ≤ 0
  · refine ⟨c + 12289, by omega, by omega, ?_⟩
    push_cast
    rw [show (12289 : ZMod 12289) = 0 from rfl, add_zero]
  · refine ⟨c - 12289, by omega, by omega, ?_⟩
    push_cast
    rw [show (12289 : ZMod 12289) = 0 from rfl, sub_zero]

/-- The zero signature is a preimage of every point. -/
theorem zero_preimage (n : Nat) (h c : List Int) (hc : c.length = n) : IsPreimage n h c c (List.replicate n 0) := by
  refine ⟨hc, List.length_replicate, ?_⟩
  have e : negMul n (zq (List.replicate n 0)) (zq h) = List.replicate n 0 := by
    have z : ∀ j, (zq (List.replicate n 0)).getD j 0 = 0 := by
      intro j
      unfold zq
      rw [List.map_replicate, List.getD_eq_getElem?_getD]
      by_cases hj : j < n
      · rw [List.getElem?_replicate, if_pos hj]; simp
      · rw [List.getElem?_replicate, if_neg hj]; rfl
    unfold negMul
    rw [List.eq_replicate_iff]
    refine ⟨by simp, fun b hb => ?_⟩
    obtain ⟨i, _, rfl⟩ := List.mem_map.1 hb
    unfold negCoeff
    apply Finset.sum_eq_zero
    intro j _
    apply Finset.sum_eq_zero
    intro k _
    rw [z j]
    simp
  rw [e]
  apply List.ext_getElem (by simp; omega)
  intro i h1 h2
  simp

/-- A hash giving the constant point 257: the zero signature is accepted, whatever the key. -/
example (h : List Nat) (hl : h.length = 512) : Accepts (fun _ => List.replicate 32 1) [6] [5] (List.replicate 512 0) h := by
  have hb : ∀ x : Bytes, IsBytes ((fun _ => List.replicate 32 1 : Bytes → Bytes) x) := fun x y hy => by rw [List.eq_of_mem_replicate hy]; norm_num
  have hH : ∀ x : Bytes, ((fun _ => List.replicate 32 1 : Bytes → Bytes) x).length = 32 := fun _ => List.length_replicate
  rw [C74_accepts_iff _ hH hb _ _ _ _ (fun c hc => by rw [List.eq_of_mem_replicate hc]; norm_num)]
  have ip := (tetr_iff hH hb [5] [6] (List.replicate 512 257)).1 ⟨513, by decide +kernel⟩
  have nz : ∀ (k : Nat) (z : Int), normSq (List.replicate k z) = k * (z * z) := by
    intro k z
    unfold normSq
    rw [List.map_replicate, List.sum_replicate, nsmul_eq_mul]
  refine ⟨List.length_replicate, hl, fun c hc => by rw [List.eq_of_mem_replicate hc]; norm_num, _, ints (List.replicate 512 257), ip, zero_preimage _ _ _ (by rw [length_ints, List.length_replicate]), ?_⟩
  unfold ints
  rw [List.map_replicate, List.map_replicate, nz, nz]
  norm_num [Contract.bmod_q]

/-! ## C75: binding of message and salt -/

/-- C75 is false of the code: only the concatenation counts, so the boundary between message and salt can be moved at will. -/
theorem C75_resplit (H : Bytes → Bytes) (opt : Bool) (m s m' s' : Bytes) (he : m ++ s = m' ++ s') (s1 : List Int) (h : List Nat) (fuel : Nat) :
    verify H opt m s s1 h fuel = verify H opt m' s' s1 h fuel := by
  unfold verify Hash.Sol.hashToPointTETRATION
  rw [he]

/-- Every accepted signature with a non-empty salt or message is accepted for a different message too. -/
theorem C75_false (H : Bytes → Bytes) (m s : Bytes) (hne : m ++ s ≠ []) (s1 : List Int) (h : List Nat) (ha : Accepts H m s s1 h) :
    ∃ m' s', m' ≠ m ∧ Accepts H m' s' s1 h := by
  obtain ⟨fuel, hv⟩ := ha
  by_cases hm : m = []
  · refine ⟨m ++ s, [], by rw [hm] at hne ⊢; simpa using hne, fuel, ?_⟩
    rw [← hv]; exact C75_resplit H false _ _ _ _ (by simp) s1 h fuel
  · refine ⟨[], m ++ s, fun h => hm h.symm, fuel, ?_⟩
    rw [← hv]; exact C75_resplit H false _ _ _ _ (by simp) s1 h fuel

/-- What does hold: when message and salt lengths are fixed (here: both messages of the same length), equal concatenations mean equal pairs. -/
theorem C75_fixed_length_partial (m s m' s' : Bytes) (hl : m.length = m'.length) (he : m ++ s = m' ++ s') : m = m' ∧ s = s' := List.append_inj he hl

theorem normSq_nonneg (l : List Int) : 0 ≤ normSq l := by
  unfold normSq
  apply List.sum_nonneg
  intro y hy
  obtain ⟨z, _, rfl⟩ := List.mem_map.1 hy
  exact mul_self_nonneg z

theorem sq_le_normSq (l : List Int) (c : Int) (h : c ∈ l) : c * c ≤ normSq l := by
  unfold normSq
  apply List.single_le_sum
  · intro y hy
    obtain ⟨z, _, rfl⟩ := List.mem_map.1 hy
    exact mul_self_nonneg z
  · exact List.mem_map.2 ⟨c, h, rfl⟩

/-- **C75, link with Python**: a signature the Python verifier accepts with the `KeccaXof` hash, squared norm strictly below the bound, is accepted by the contract for every way of writing
its salt followed by its message as `msgs ‖ salt`. -/
theorem C75_python (H : Bytes → Bytes) (hH : ∀ x, (H x).length = 32) (hb : ∀ x, IsBytes (H x)) (P : PolyLib) (A : Arith P 512) (pk : List Nat) (hpk : pk.length = 512)
    (message sig : Bytes) (s1 : List Int) (hd : Encoding.decompress (sig.drop 41) 625 512 = .ok (some s1))
    (hv : VerifyReturns P (keccaXof H) 512 34034725 666 (ints pk) message sig true) (m s : Bytes) (hms : m ++ s = saltOf sig ++ message) : Accepts H m s s1 pk := by
  obtain ⟨t1, c, he, hc, s0, hI, hn⟩ := (C25_accepts_iff P _ 512 34034725 666 (by norm_num) A (ints pk) (by simpa using hpk) message sig).1 hv
  obtain rfl : s1 = t1 := by
    have := (decompress_encodes 512 666 (by norm_num) sig t1).2 he
    rw [hd] at this; simpa using this
  have hr : ∀ c ∈ s1, -6144 ≤ c ∧ c ≤ 6144 := by
    intro c hc
    have h0 := normSq_nonneg s0
    have h1 := sq_le_normSq s1 c hc
    push_cast at hn
    constructor <;> nlinarith
  rw [C74_accepts_iff H hH hb _ _ _ _ (fun c hc => by have := hr c hc; omega)]
  have ip := (tetr_iff hH hb _ _ c).1 ((C24_tetration H hH hb message (saltOf sig) c).2 hc)
  refine ⟨he.2.1, hpk, fun c hc => by have := hr c hc; omega, c, s0, by rwa [hms], hI, ?_⟩
  have : (s1.map fun c => Int.bmod c 12289) = s1 := by
    conv_rhs => rw [← List.map_id s1]
    apply List.map_congr_left
    intro c hc
    have := hr c hc
    rw [Contract.bmod_q]
    simp only [id_eq]
    omega
  rw [this]
  push_cast at hn
  linarith

end Verif.Tetration
