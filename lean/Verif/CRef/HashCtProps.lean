import Verif.CRef.HashCt
import Verif.CRef.ShakeProps
import Verif.CRef.Arith

/-! # Property C89: the constant-time hash to point equals the variable-time one -/

namespace Verif.CRef
open Verif Verif.Hash

/-! ## Samples -/

theorem mask_sub (c x : Nat) (hc : c < 4294967296) (hx : x < 4294967296) (hd : c ≤ 65536) (hxs : x ≤ 65536) :
    sub32 (sub32 x c >>> 31) 1 = if c ≤ x then 4294967295 else 0 := by
  have h : sub32 x c < 4294967296 := by unfold sub32; omega
  rw [shift31 _ h]
  unfold sub32
  split <;> split <;> omega

theorem and_full (c : Nat) (h : c < 4294967296) : c &&& 4294967295 = c := by
  rw [show (4294967295 : Nat) = 2 ^ 32 - 1 from rfl, Nat.and_two_pow_sub_one_eq_mod]
  exact Nat.mod_eq_of_lt h

theorem cond_sub (c x : Nat) (hd : c ≤ 65536) (hxs : x ≤ 65536) : sub32 x (c &&& sub32 (sub32 x c >>> 31) 1) = if c ≤ x then x - c else x := by
  rw [mask_sub c x (by omega) (by omega) hd hxs]
  split
  · rw [and_full c (by omega)]; unfold sub32; omega
  · rw [Nat.and_zero]; unfold sub32; omega

theorem ctSample_eq (w : Nat) (h : w < 65536) : ctSample w = if w < 61445 then w % 12289 else 65535 := by
  unfold ctSample
  dsimp only
  rw [cond_sub 24578 w (by norm_num) (by omega)]
  obtain ⟨a, ha⟩ : ∃ a, (if 24578 ≤ w then w - 24578 else w) = a := ⟨_, rfl⟩
  have a1 : a < 65536 := by rw [← ha]; split <;> omega
  rw [ha, cond_sub 24578 a (by norm_num) (by omega)]
  obtain ⟨b, hb⟩ : ∃ b, (if 24578 ≤ a then a - 24578 else a) = b := ⟨_, rfl⟩
  have b1 : b < 65536 := by rw [← hb]; split <;> omega
  rw [hb, cond_sub 12289 b (by norm_num) (by omega)]
  obtain ⟨c, hc⟩ : ∃ c, (if 12289 ≤ b then b - 12289 else b) = c := ⟨_, rfl⟩
  have c1 : c < 65536 := by rw [← hc]; split <;> omega
  rw [hc, mask_sub 61445 w (by norm_num) (by omega) (by norm_num) (by omega)]
  by_cases hw : w < 61445
  · rw [if_neg (by omega), if_pos hw, Nat.or_zero]
    unfold u16
    split at ha <;> split at hb <;> split at hc <;> omega
  · rw [if_pos (by omega), if_neg hw]
    have : c ||| 4294967295 = 4294967295 := by
      rw [show (4294967295 : Nat) = 2 ^ 32 - 1 from rfl]
      apply Nat.eq_of_testBit_eq
      intro i
      rw [Nat.testBit_or, Nat.testBit_two_pow_sub_one]
      by_cases hi : i < 32
      · simp [hi]
      · have : c.testBit i = false := Nat.testBit_lt_two_pow (lt_of_lt_of_le c1 (by calc 65536 = 2 ^ 16 := by norm_num
                                                                                          _ ≤ 2 ^ i := Nat.pow_le_pow_right (by norm_num) (by omega)))
        simp [hi, this]
    rw [this]
    rfl

/-! ## Lists -/

theorem get_set (a : List Nat) (i t x : Nat) (hi : i < a.length) : (a.set i x)[t]! = if i = t then x else a[t]! := by
  by_cases ht : t < a.length
  · rw [getElem!_pos _ t (by rw [List.length_set]; exact ht), List.getElem_set]
    split
    · rfl
    · rw [getElem!_pos a t ht]
  · rw [getElem!_neg _ t (by rw [List.length_set]; exact ht), getElem!_neg a t ht, if_neg (by omega)]

theorem set_same (a : List Nat) (i : Nat) : a.set i a[i]! = a := by
  by_cases hi : i < a.length
  · rw [getElem!_pos a i hi, List.set_getElem_self]
  · rw [List.set_eq_of_length_le (by omega)]

/-- The exchange of two entries. -/
def exch (a : List Nat) (u d : Nat) : List Nat := (a.set u a[d]!).set d a[u]!

/-! ## One step -/

theorem and_pow (j s : Nat) : j &&& 2 ^ s = if j / 2 ^ s % 2 = 1 then 2 ^ s else 0 := by
  apply Nat.eq_of_testBit_eq
  intro i
  rw [Nat.testBit_and, Nat.testBit_two_pow]
  by_cases hi : s = i
  · subst hi
    have : j.testBit s = decide (j / 2 ^ s % 2 = 1) := by
      rw [Nat.testBit_eq_decide_div_mod_eq]
    rw [this]
    split <;> rename_i h <;> simp [h, Nat.testBit_two_pow_self]
  · split <;> simp [hi, Nat.testBit_two_pow]

theorem step_eq (s u v : Nat) (a : List Nat) (hs : s ≤ 8) (hv : v ≤ u) (hu : u < 2147483648) (h : ∀ t : Nat, a[t]! < 65536) :
    ctStep (2 ^ s) (v, a) u =
      if a[u]! < 32768 then (v + 1, if 2 ^ s ≤ u ∧ (u - v) / 2 ^ s % 2 = 1 then exch a u (u - 2 ^ s) else a) else (v, a) := by
  unfold ctStep
  dsimp only
  have h1 := h u
  have h2 := h (u - 2 ^ s)
  have hj : sub32 u v = u - v := by unfold sub32; omega
  have hp : (2 : Nat) ^ s ≤ 256 := by
    calc (2 : Nat) ^ s ≤ 2 ^ 8 := Nat.pow_le_pow_right (by norm_num) hs
      _ = 256 := by norm_num
  have hp1 : 1 ≤ (2 : Nat) ^ s := Nat.one_le_two_pow
  rw [hj, and_pow, Nat.shiftRight_eq_div_pow, Nat.shiftRight_eq_div_pow]
  obtain ⟨x, hx⟩ : ∃ x, a[u]! = x := ⟨_, rfl⟩
  obtain ⟨y, hy⟩ : ∃ y, a[u - 2 ^ s]! = y := ⟨_, rfl⟩
  rw [hx] at h1
  rw [hy] at h2
  by_cases hc : a[u]! < 32768
  · have e1 : sub32 (x / 2 ^ 15) 1 = 4294967295 := by unfold sub32; omega
    have e2 : sub32 v 4294967295 = v + 1 := by unfold sub32; omega
    rw [if_pos hc, hx, e1, e2]
    by_cases hup : u < 2 ^ s
    · rw [if_pos hup, if_neg (by omega)]
    · rw [if_neg hup, hy]
      by_cases hb : (u - v) / 2 ^ s % 2 = 1
      · have c1 : (2 ^ s ≤ u ∧ (u - v) / 2 ^ s % 2 = 1) := ⟨by omega, hb⟩
        rw [if_pos c1, if_pos hb, show (2 ^ s + 0x1FF) / 2 ^ 9 = 1 by norm_num; omega, show (4294967295 &&& neg32 1) = 4294967295 from by decide]
        have hxy : x ^^^ y < 65536 := Nat.xor_lt_two_pow (n := 16) h1 h2
        rw [Nat.and_comm, and_full _ (by omega)]
        have e3 : x ^^^ (x ^^^ y) = y := by rw [← Nat.xor_assoc, Nat.xor_self, Nat.zero_xor]
        have e4 : y ^^^ (x ^^^ y) = x := by rw [Nat.xor_comm x y, ← Nat.xor_assoc, Nat.xor_self, Nat.zero_xor]
        rw [e3, e4]
        unfold exch u16
        rw [hx, hy, Nat.mod_eq_of_lt h1, Nat.mod_eq_of_lt h2]
      · have c1 : ¬ (2 ^ s ≤ u ∧ (u - v) / 2 ^ s % 2 = 1) := fun h => hb h.2
        rw [if_neg c1, if_neg hb, show (0 + 0x1FF) / 2 ^ 9 = 0 from by decide, show (4294967295 &&& neg32 0) = 0 from by decide, Nat.zero_and, Nat.xor_zero, Nat.xor_zero]
        unfold u16
        rw [Nat.mod_eq_of_lt h1, Nat.mod_eq_of_lt h2, ← hx, set_same, ← hy, set_same]
  · have e1 : sub32 (x / 2 ^ 15) 1 = 0 := by
      rw [hx] at hc
      have : x / 2 ^ 15 = 1 := by norm_num; omega
      rw [this]; rfl
    have e2 : sub32 v 0 = v := by unfold sub32; omega
    rw [if_neg hc, hx, e1, e2]
    by_cases hup : u < 2 ^ s
    · rw [if_pos hup]
    · rw [if_neg hup, hy, Nat.zero_and, Nat.zero_and, Nat.xor_zero, Nat.xor_zero]
      unfold u16
      rw [Nat.mod_eq_of_lt h1, Nat.mod_eq_of_lt h2, ← hx, set_same, ← hy, set_same]

/-! ## One pass -/

/-- The values of `L` stand at the places `f 0 < f 1 < …`; all other entries are rejected samples. -/
structure Placed (L : List Nat) (m : Nat) (f : Nat → Nat) (a : List Nat) : Prop where
  len : a.length = m
  lt : ∀ i < L.length, f i < m
  val : ∀ i < L.length, a[f i]! = L[i]!
  free : ∀ t < m, (∀ i < L.length, f i ≠ t) → a[t]! = 65535

theorem Placed.small {L : List Nat} {m : Nat} {f : Nat → Nat} {a : List Nat} (P : Placed L m f a) (hL : ∀ x ∈ L, x < 32768) : ∀ t : Nat, a[t]! < 65536 := by
  intro t
  by_cases ht : t < m
  · by_cases h : ∃ i, i < L.length ∧ f i = t
    · obtain ⟨i, h1, h2⟩ := h
      have := hL L[i]! (by rw [getElem!_pos L i h1]; exact List.getElem_mem h1)
      rw [← h2, P.val i h1]; omega
    · rw [P.free t ht fun i h1 h2 => h ⟨i, h1, h2⟩]; norm_num
  · rw [getElem!_neg a t (by rw [P.len]; exact ht)]
    exact Nat.zero_lt_succ _

variable {L : List Nat} {m : Nat} {J : Nat → Nat}

/-- The places when the jumps are cut to multiples of `p`. -/
def place (J : Nat → Nat) (p i : Nat) : Nat := i + J i / p * p

theorem place_mono (k p : Nat) (hJ : ∀ i i', i ≤ i' → i' < k → J i ≤ J i') (i i' : Nat) (h : i < i') (h' : i' < k) : place J p i < place J p i' := by
  unfold place
  have := Nat.mul_le_mul_right p (Nat.div_le_div_right (c := p) (hJ i i' (le_of_lt h) h'))
  omega

theorem place_double (p i : Nat) : place J p i = place J (2 * p) i + (J i / p % 2) * p ∧ J i / (2 * p) * (2 * p) + (J i / p % 2) * p = J i / p * p := by
  unfold place
  have : J i / (2 * p) = J i / p / 2 := by rw [Nat.mul_comm, Nat.div_div_eq_div_mul]
  have h2 := Nat.div_add_mod (J i / p) 2
  have h3 : J i / (2 * p) * (2 * p) + (J i / p % 2) * p = J i / p * p := by
    rw [this]
    calc J i / p / 2 * (2 * p) + J i / p % 2 * p = (2 * (J i / p / 2) + J i / p % 2) * p := by ring
      _ = _ := by rw [h2]
  omega

theorem pass_ok (s : Nat) (hs : s ≤ 8) (hm : m < 2147483648) (hL : ∀ x ∈ L, x < 32768) (hJ : ∀ i i', i ≤ i' → i' < L.length → J i ≤ J i') (a : List Nat)
    (P : Placed L m (place J (2 ^ s)) a) : Placed L m (place J (2 ^ (s + 1))) (ctPass (2 ^ s) m a) := by
  have hpos : 0 < (2 : Nat) ^ s := Nat.two_pow_pos s
  have e2 : (2 : Nat) ^ (s + 1) = 2 * 2 ^ s := by rw [pow_succ, Nat.mul_comm]
  rw [e2]
  obtain ⟨p, hp⟩ : ∃ p, (2 : Nat) ^ s = p := ⟨_, rfl⟩
  rw [hp] at P hpos ⊢
  have G_le : ∀ i, place J (2 * p) i ≤ place J p i := fun i => by have := (place_double (J := J) p i).1; omega
  have key : ∀ u ≤ m, ∃ v b, (List.range u).foldl (ctStep p) (0, a) = (v, b) ∧ v ≤ L.length ∧ v ≤ u ∧ (∀ i < v, place J p i < u) ∧ (∀ i < L.length, v ≤ i → u ≤ place J p i) ∧
      Placed L m (fun i => if i < v then place J (2 * p) i else place J p i) b := by
    intro u
    induction u with
    | zero => intro _; exact ⟨0, a, rfl, Nat.zero_le _, Nat.zero_le _, fun i hi => absurd hi (Nat.not_lt_zero i), fun i _ _ => Nat.zero_le _, by simpa using P⟩
    | succ u ih =>
      intro hu
      obtain ⟨v, b, h1, h2, h2', h3, h4, Q⟩ := ih (by omega)
      have hstep := step_eq s u v b hs h2' (by omega) (Q.small hL)
      rw [List.range_succ, List.foldl_append, h1, List.foldl_cons, List.foldl_nil]
      rw [hp] at hstep
      rw [hstep]
      by_cases hx : ∃ i, i < L.length ∧ (if i < v then place J (2 * p) i else place J p i) = u
      · -- an element stands at `u`: it is number `v`
        obtain ⟨i, i1, i2⟩ := hx
        have hiv : ¬ i < v := by
          intro hlt
          rw [if_pos hlt] at i2
          have := h3 i hlt
          have := G_le i
          omega
        rw [if_neg hiv] at i2
        have hi : i = v := by
          by_contra hne
          have l1 := place_mono L.length p hJ v i (by omega) i1
          have l2 := h4 v (by omega) (Nat.le_refl _)
          omega
        subst hi
        have hval : b[u]! = L[i]! := by
          have := Q.val i i1
          simp only [lt_irrefl, if_false] at this
          rw [← i2]; exact this
        have hlt : b[u]! < 32768 := by
          rw [hval, getElem!_pos L i i1]; exact hL _ (List.getElem_mem i1)
        rw [if_pos hlt]
        obtain ⟨d1, d2⟩ := place_double (J := J) p i
        have hj : (u - i) / p % 2 = J i / p % 2 := by
          have : u - i = J i / p * p := by rw [← i2]; unfold place; omega
          rw [this, Nat.mul_div_cancel _ hpos]
        have next : ∀ j < L.length, i + 1 ≤ j → u + 1 ≤ place J p j := fun j j1 j2 => by
          have := place_mono L.length p hJ i j (by omega) j1
          omega
        by_cases hbit : p ≤ u ∧ (u - i) / p % 2 = 1
        · rw [if_pos hbit]
          rw [hj] at hbit
          obtain ⟨b1, b2⟩ := hbit
          rw [b2, Nat.one_mul] at d1
          have hG : place J (2 * p) i = u - p := by omega
          have hfree : b[u - p]! = 65535 := by
            refine Q.free _ (by omega) fun j j1 j2 => ?_
            by_cases hj : j < i
            · rw [if_pos hj] at j2
              have := place_mono L.length (2 * p) hJ j i hj i1
              omega
            · rw [if_neg hj] at j2
              have := h4 j j1 (by omega)
              omega
          have hlen := Q.len
          refine ⟨i + 1, exch b u (u - p), rfl, by omega, by omega, ?_, next, ?_⟩
          · intro j hj
            by_cases hji : j < i
            · have := h3 j hji; omega
            · have : j = i := by omega
              rw [this]; omega
          · unfold exch
            rw [hfree, hval]
            have gs : ∀ t, ((b.set u 65535).set (u - p) L[i]!)[t]! = if u - p = t then L[i]! else if u = t then 65535 else b[t]! := fun t => by
              rw [get_set _ _ _ _ (by rw [List.length_set, hlen]; omega), get_set _ _ _ _ (by rw [hlen]; omega)]
            refine ⟨by rw [List.length_set, List.length_set]; exact hlen, ?_, ?_, ?_⟩
            · intro j j1
              have hq := P.lt j j1
              have := G_le j
              split <;> omega
            · intro j j1
              have hq := Q.val j j1
              rw [gs]
              by_cases hji : j = i
              · subst hji
                rw [if_pos (Nat.lt_succ_self _), if_pos hG.symm]
              · by_cases hjj : j < i
                · rw [if_pos (show j < i + 1 by omega)]
                  rw [if_pos hjj] at hq
                  have l1 := place_mono L.length (2 * p) hJ j i hjj i1
                  rw [if_neg (by omega), if_neg (by omega)]
                  exact hq
                · rw [if_neg (show ¬ j < i + 1 by omega)]
                  rw [if_neg hjj] at hq
                  have := next j j1 (by omega)
                  rw [if_neg (by omega), if_neg (by omega)]
                  exact hq
            · intro t ht hf
              rw [gs]
              by_cases t1 : u - p = t
              · exfalso
                have := hf i i1
                rw [if_pos (Nat.lt_succ_self _)] at this
                omega
              · rw [if_neg t1]
                by_cases t2 : u = t
                · rw [if_pos t2]
                · rw [if_neg t2]
                  refine Q.free t ht fun j j1 => ?_
                  have hq := hf j j1
                  by_cases hjj : j < i
                  · rw [if_pos (show j < i + 1 by omega)] at hq
                    rw [if_pos hjj]; exact hq
                  · rw [if_neg hjj]
                    by_cases hji : j = i
                    · rw [hji, i2]; exact t2
                    · rw [if_neg (show ¬ j < i + 1 by omega)] at hq; exact hq
        · rw [if_neg hbit]
          rw [hj] at hbit
          have hz : J i / p % 2 = 0 := by
            by_contra hne
            have h1 : J i / p % 2 = 1 := by omega
            rw [h1, Nat.one_mul] at d1
            exact hbit ⟨by omega, h1⟩
          rw [hz, Nat.zero_mul, Nat.add_zero] at d1
          have same : ∀ j, (if j < i + 1 then place J (2 * p) j else place J p j) = if j < i then place J (2 * p) j else place J p j := by
            intro j
            by_cases hjj : j < i
            · rw [if_pos hjj, if_pos (by omega)]
            · rw [if_neg hjj]
              by_cases hji : j = i
              · rw [hji, if_pos (Nat.lt_succ_self _), d1]
              · rw [if_neg (by omega)]
          refine ⟨i + 1, b, rfl, by omega, by omega, ?_, next, ?_⟩
          · intro j hj
            by_cases hji : j < i
            · have := h3 j hji; omega
            · have : j = i := by omega
              rw [this]; omega
          · simp only [same]
            exact Q
      · have hfree : b[u]! = 65535 := Q.free u (by omega) fun i i1 i2 => hx ⟨i, i1, i2⟩
        rw [hfree, if_neg (by norm_num)]
        refine ⟨v, b, rfl, h2, by omega, fun i hi => by have := h3 i hi; omega, ?_, Q⟩
        intro i i1 i2
        have := h4 i i1 i2
        have hne : place J p i ≠ u := fun he => hx ⟨i, i1, by rw [if_neg (by omega)]; exact he⟩
        omega
  obtain ⟨v, b, h1, h2, _, h3, h4, Q⟩ := key m (Nat.le_refl _)
  have hv : ∀ i < L.length, i < v := by
    intro i hi
    by_contra hne
    have l1 := h4 i hi (by omega)
    have l2 := P.lt i hi
    omega
  unfold ctPass
  rw [h1]
  have same : ∀ i < L.length, (if i < v then place J (2 * p) i else place J p i) = place J (2 * p) i := fun i hi => if_pos (hv i hi)
  refine ⟨Q.len, fun i hi => ?_, fun i hi => ?_, fun t ht hf => Q.free t ht fun i hi => ?_⟩
  · have := Q.lt i hi; rw [same i hi] at this; exact this
  · have := Q.val i hi; rw [same i hi] at this; exact this
  · rw [same i hi]; exact hf i hi

theorem loop_ok (over : Nat) (ho : over < 512) (hm : m < 2147483648) (hL : ∀ x ∈ L, x < 32768) (hJ : ∀ i i', i ≤ i' → i' < L.length → J i ≤ J i') :
    ∀ (fuel s : Nat) (a : List Nat), 9 ≤ s + fuel → Placed L m (place J (2 ^ s)) a → ∃ S, over < 2 ^ S ∧ Placed L m (place J (2 ^ S)) (ctLoop over m fuel (2 ^ s) a) := by
  intro fuel
  induction fuel with
  | zero =>
    intro s a h P
    refine ⟨s, lt_of_lt_of_le ho ?_, P⟩
    calc 512 = 2 ^ 9 := by norm_num
      _ ≤ 2 ^ s := Nat.pow_le_pow_right (by norm_num) (by omega)
  | succ fuel ih =>
    intro s a h P
    unfold ctLoop
    by_cases hle : 2 ^ s ≤ over
    · rw [if_pos hle, Nat.shiftLeft_eq, show (2 : Nat) ^ s * 2 ^ 1 = 2 ^ (s + 1) by ring]
      have hs : s ≤ 8 := by
        by_contra hne
        have : (2 : Nat) ^ 9 ≤ 2 ^ s := Nat.pow_le_pow_right (by norm_num) (by omega)
        norm_num at this
        omega
      exact ih (s + 1) _ (by omega) (pass_ok s hs hm hL hJ a P)
    · rw [if_neg hle]
      exact ⟨s, by omega, P⟩

/-! ## The samples -/

theorem placed_init (A : List Nat) (hA : ∀ x ∈ A, x < 32768 ∨ x = 65535) :
    ∃ J : Nat → Nat, (∀ i i', i ≤ i' → i' < (A.filter (· < 32768)).length → J i ≤ J i') ∧ Placed (A.filter (· < 32768)) A.length (place J 1) A := by
  induction A with
  | nil => exact ⟨fun _ => 0, fun _ _ _ _ => Nat.le_refl _, rfl, fun i hi => absurd hi (Nat.not_lt_zero i), fun i hi => absurd hi (Nat.not_lt_zero i), fun t ht => absurd ht (Nat.not_lt_zero t)⟩
  | cons x A ih =>
    obtain ⟨J, h1, h2⟩ := ih fun y hy => hA y (List.mem_cons_of_mem _ hy)
    have pl : ∀ (J : Nat → Nat) i, place J 1 i = i + J i := fun J i => by unfold place; rw [Nat.div_one, Nat.mul_one]
    have sc : ∀ (y : Nat) (l : List Nat) t, (y :: l)[t + 1]! = l[t]! := fun y l t => by simp
    rcases hA x List.mem_cons_self with hx | hx
    · have e : (x :: A).filter (· < 32768) = x :: A.filter (· < 32768) := by rw [List.filter_cons, if_pos (by simpa using hx)]
      rw [e]
      refine ⟨fun i => if i = 0 then 0 else J (i - 1), ?_, rfl, ?_, ?_, ?_⟩
      · intro i i' hi hi'
        rw [List.length_cons] at hi'
        dsimp only
        split
        · exact Nat.zero_le _
        · rw [if_neg (by omega)]; exact h1 _ _ (by omega) (by omega)
      · intro i hi
        rw [List.length_cons] at hi ⊢
        rw [pl]
        split
        · omega
        · have := h2.lt (i - 1) (by omega)
          rw [pl] at this
          omega
      · intro i hi
        rw [List.length_cons] at hi
        rw [pl]
        split
        · rename_i h0; subst h0; rfl
        · have := h2.val (i - 1) (by omega)
          rw [pl] at this
          obtain ⟨k, rfl⟩ : ∃ k, i = k + 1 := ⟨i - 1, by omega⟩
          rw [Nat.add_sub_cancel] at this ⊢
          rw [show k + 1 + J k = (k + J k) + 1 by omega, sc, sc]
          exact this
      · intro t ht hf
        obtain ⟨k, rfl⟩ : ∃ k, t = k + 1 := by
          refine ⟨t - 1, ?_⟩
          have := hf 0 (by rw [List.length_cons]; omega)
          rw [pl, if_pos rfl] at this
          omega
        rw [sc]
        rw [List.length_cons] at ht
        refine h2.free k (by omega) fun i hi => ?_
        have := hf (i + 1) (by rw [List.length_cons]; omega)
        rw [pl, if_neg (by omega), Nat.add_sub_cancel] at this
        rw [pl]
        omega
    · have e : (x :: A).filter (· < 32768) = A.filter (· < 32768) := by rw [List.filter_cons, if_neg (by simp [hx])]
      rw [e]
      refine ⟨fun i => J i + 1, fun i i' hi hi' => Nat.succ_le_succ (h1 i i' hi hi'), rfl, ?_, ?_, ?_⟩
      · intro i hi
        have := h2.lt i hi
        rw [pl] at this ⊢
        rw [List.length_cons]
        omega
      · intro i hi
        have := h2.val i hi
        rw [pl] at this ⊢
        rw [show i + (J i + 1) = (i + J i) + 1 by omega, sc]
        exact this
      · intro t ht hf
        rw [List.length_cons] at ht
        cases t with
        | zero => exact hx
        | succ t =>
          rw [sc]
          refine h2.free t (by omega) fun i hi => ?_
          have := hf i hi
          rw [pl] at this ⊢
          omega

/-- What squeezing gives: the first `n` valid samples, if there are that many, and otherwise an entry `0xFFFF`. -/
theorem squeeze (A : List Nat) (n over : Nat) (hA : ∀ x ∈ A, x < 32768 ∨ x = 65535) (hl : A.length = n + over) (ho : over < 512) (hn : n + over < 2147483648) :
    (ctLoop over (n + over) 9 1 A).length = n + over ∧
    (n ≤ (A.filter (· < 32768)).length → (ctLoop over (n + over) 9 1 A).take n = (A.filter (· < 32768)).take n) ∧
    ((A.filter (· < 32768)).length < n → 65535 ∈ (ctLoop over (n + over) 9 1 A).take n) := by
  obtain ⟨J, h1, h2⟩ := placed_init A hA
  obtain ⟨L, hL'⟩ : ∃ L, A.filter (· < 32768) = L := ⟨_, rfl⟩
  have hL : ∀ x ∈ L, x < 32768 := by
    intro x hx
    rw [← hL'] at hx
    simpa using (List.mem_filter.1 hx).2
  rw [hL', hl] at h2
  rw [hL'] at h1 ⊢
  obtain ⟨S, s1, P⟩ := loop_ok over ho hn hL h1 9 0 A (by norm_num) h2
  rw [pow_zero] at P
  refine ⟨P.len, fun hk => ?_, fun hk => ?_⟩
  · have hJ0 : ∀ i < L.length, place J (2 ^ S) i = i := by
      intro i hi
      have a1 := h1 i (L.length - 1) (by omega) (by omega)
      have a2 := h2.lt (L.length - 1) (by omega)
      unfold place at a2
      rw [Nat.div_one, Nat.mul_one] at a2
      unfold place
      rw [Nat.div_eq_of_lt (by omega), Nat.zero_mul, Nat.add_zero]
    apply List.ext_getElem
    · rw [List.length_take, List.length_take, P.len]; omega
    · intro i i1 i2
      rw [List.length_take] at i1 i2
      have := P.val i (by omega)
      rw [hJ0 i (by omega)] at this
      rw [List.getElem_take, List.getElem_take]
      rw [getElem!_pos _ i (by omega), getElem!_pos _ i (by omega)] at this
      exact this
  · by_contra hno
    have hall : ∀ t < n, ∃ i, i < L.length ∧ place J (2 ^ S) i = t := by
      intro t ht
      by_contra hne
      apply hno
      have := P.free t (by omega) fun i i1 i2 => hne ⟨i, i1, i2⟩
      have hlen := P.len
      rw [getElem!_pos _ t (by omega)] at this
      rw [← this]
      rw [List.mem_take_iff_getElem]
      exact ⟨t, by omega, rfl⟩
    have hid : ∀ t < n, t < L.length ∧ place J (2 ^ S) t = t := by
      intro t
      induction t using Nat.strong_induction_on with
      | _ t ih =>
        intro ht
        obtain ⟨i, i1, i2⟩ := hall t ht
        have hle : i ≤ t := by rw [← i2]; unfold place; omega
        by_cases hit : i = t
        · subst hit; exact ⟨i1, i2⟩
        · have := (ih i (by omega) (by omega)).2
          omega
    have := (hid L.length hk).1
    omega

variable {S : Type}

theorem ctRead_ok (M : Bytes) : ∀ (k t : Nat) (c : Shake.Ctx) (a : List Nat), Shake.At (shakeState M) (2 * t) c → a = (List.range t).map (fun i => ctSample (word16 (shakeByte M) i)) →
    ctRead k c a = (List.range (t + k)).map (fun i => ctSample (word16 (shakeByte M) i)) := by
  intro k
  induction k with
  | zero => intro t c a _ ha; exact ha
  | succ k ih =>
    intro t c a hc ha
    obtain ⟨e1, e2⟩ := (reads_shake M).step _ _ hc
    unfold ctRead
    dsimp only
    rw [e1]
    simp only [List.getD_cons_zero, List.getD_cons_succ]
    rw [word_or _ _ (shakeByte_lt M _), ih (t + 1) _ _ e2 (by rw [List.range_succ, List.map_append, ← ha]; rfl)]
    rw [show t + 1 + k = t + (k + 1) by omega]

theorem word16_lt' (M : Bytes) (i : Nat) : word16 (shakeByte M) i < 65536 := by
  unfold word16
  have h1 := shakeByte_lt M (2 * i)
  have h2 := shakeByte_lt M (2 * i + 1)
  omega

theorem samples_filter (M : Bytes) (T : Nat) : ((List.range T).map (fun i => ctSample (word16 (shakeByte M) i))).filter (· < 32768) = accepted (shakeByte M) T := by
  induction T with
  | zero => rfl
  | succ T ih =>
    rw [List.range_succ, List.map_append, List.filter_append, ih, accepted_succ, List.map_cons, List.map_nil, ctSample_eq _ (word16_lt' M T)]
    congr 1
    by_cases h : word16 (shakeByte M) T < 61445
    · rw [if_pos h, if_pos h, List.filter_cons, if_pos (by have := Nat.mod_lt (word16 (shakeByte M) T) (show 0 < 12289 by norm_num); simp; omega), List.filter_nil]
    · rw [if_neg h, if_neg h]; rfl

/-- The number of words `hash_to_point_ct` reads: `n` and the oversampling of its table. -/
def ctWords (logn : Nat) : Nat := 2 ^ logn + overtab.getD logn 0

theorem over_lt (logn : Nat) (h1 : 1 ≤ logn) (h : logn ≤ 10) : overtab.getD logn 0 < 512 ∧ 2 ^ logn + overtab.getD logn 0 < 2147483648 ∧ ctWords logn ≤ 2 * 2 ^ logn + 63 := by
  unfold ctWords
  have : ∀ k ∈ [1, 2, 3, 4, 5, 6, 7, 8, 9, 10], overtab.getD k 0 < 512 ∧ 2 ^ k + overtab.getD k 0 < 2147483648 ∧ 2 ^ k + overtab.getD k 0 ≤ 2 * 2 ^ k + 63 := by decide
  exact this logn (by simp only [List.mem_cons, List.not_mem_nil, or_false]; omega)

/-- **C89** (the scratch space suffices): the samples fit in the `n` outputs, the `n` entries of `tmp` and the 63 entries on the stack. -/
theorem C89_space (logn : Nat) (h1 : 1 ≤ logn) (h : logn ≤ 10) : ctWords logn ≤ 2 * 2 ^ logn + 63 := (over_lt logn h1 h).2.2

/-- **C89**: the constant-time function returns `n` values; if at least `n` of the words it reads are accepted, they are the point that the variable-time function returns and nothing else is; if fewer are,
the result contains the value 65535. -/
theorem C89_constant_time (logn : Nat) (h1 : 1 ≤ logn) (hlogn : logn ≤ 10) (pieces : List Bytes) (h : ∀ p ∈ pieces, IsBytes p) :
    (hashToPointCt (shakeFlipped pieces) logn).length = 2 ^ logn ∧
    (2 ^ logn ≤ (accepted (shakeByte pieces.flatten) (ctWords logn)).length → ∀ out, ShakePointReturns logn pieces out ↔ hashToPointCt (shakeFlipped pieces) logn = out) ∧
    ((accepted (shakeByte pieces.flatten) (ctWords logn)).length < 2 ^ logn → 65535 ∈ hashToPointCt (shakeFlipped pieces) logn) := by
  obtain ⟨o1, o2, _⟩ := over_lt logn h1 hlogn
  unfold hashToPointCt
  dsimp only
  rw [ctRead_ok pieces.flatten _ 0 _ [] (flipped_at pieces h) rfl, Nat.zero_add]
  have hs : ∀ x ∈ (List.range (2 ^ logn + overtab.getD logn 0)).map (fun i => ctSample (word16 (shakeByte pieces.flatten) i)), x < 32768 ∨ x = 65535 := by
    intro x hx
    obtain ⟨i, _, rfl⟩ := List.mem_map.1 hx
    rw [ctSample_eq _ (word16_lt' _ _)]
    split
    · left; have := Nat.mod_lt (word16 (shakeByte pieces.flatten) i) (show 0 < 12289 by norm_num); omega
    · right; rfl
  obtain ⟨q1, q2, q3⟩ := squeeze _ (2 ^ logn) (overtab.getD logn 0) hs (by rw [List.length_map, List.length_range]) o1 o2
  rw [samples_filter] at q2 q3
  refine ⟨by rw [List.length_take, q1]; omega, fun hk out => ?_, fun hk => q3 hk⟩
  rw [q2 hk, C86_hash_to_point _ _ h]
  constructor
  · rintro ⟨T, t1, t2⟩
    rw [← t1] at t2 ⊢
    rcases Nat.le_total T (ctWords logn) with hT | hT
    · have := (accepted_prefix (shakeByte pieces.flatten) _ _ hT)
      rw [List.prefix_iff_eq_take] at this
      rw [this, t2]; rfl
    · have := (accepted_prefix (shakeByte pieces.flatten) _ _ hT)
      have hle := this.length_le
      have heq := this.eq_of_length (by unfold ctWords at hle hk ⊢; omega)
      unfold ctWords at heq
      rw [heq, List.take_of_length_le (by omega)]
  · intro he
    subst he
    -- the first prefix of the stream with `n` accepted words
    have : ∀ T k, k ≤ (accepted (shakeByte pieces.flatten) T).length → ∃ T', accepted (shakeByte pieces.flatten) T' = (accepted (shakeByte pieces.flatten) T).take k := by
      intro T
      induction T with
      | zero => intro k hk; exact ⟨0, by rw [List.take_of_length_le (by simp [accepted])]⟩
      | succ T ih =>
        intro k hk
        by_cases hkT : k ≤ (accepted (shakeByte pieces.flatten) T).length
        · obtain ⟨T', hT'⟩ := ih k hkT
          refine ⟨T', ?_⟩
          rw [hT', accepted_succ, List.take_append_of_le_length hkT]
        · refine ⟨T + 1, ?_⟩
          rw [List.take_of_length_le]
          rw [accepted_succ, List.length_append]
          split <;> simp <;> omega
    obtain ⟨T', hT'⟩ := this _ _ hk
    exact ⟨T', hT', by rw [List.length_take]; exact Nat.min_eq_left hk⟩

end Verif.CRef
