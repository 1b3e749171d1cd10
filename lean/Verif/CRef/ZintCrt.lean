import Verif.CRef.ZintBasic
import Verif.CRef.KgPrimes
import Mathlib.Data.List.Forall2
import Mathlib.Data.Nat.Bitwise

/-! # C101: residues, normalization and Chinese remainders -/

namespace Verif.CRef.Kg

/-! ## Powers of `2^31` modulo a prime -/

theorem rxLoop_spec {p p0i : ℕ} (M : Modulus p p0i) (x : ℕ) (hx : x < 2147483648) (fuel i r z : ℕ) (hf : 32 ≤ fuel + i) (hr : Mont p r (Rf p ^ 2 ^ i)) (hz : Mont p z (Rf p ^ (x % 2 ^ i))) :
    Mont p (modpRxLoop x p p0i fuel i r z) (Rf p ^ x) := by
  induction fuel generalizing i r z with
  | zero =>
    have : x % 2 ^ i = x := Nat.mod_eq_of_lt (lt_of_lt_of_le hx (le_trans (by norm_num) (Nat.pow_le_pow_right (by norm_num) (show 32 ≤ i by omega))))
    rw [this] at hz; exact hz
  | succ fuel ih =>
    rw [modpRxLoop, Nat.shiftLeft_eq, one_mul]
    split
    · have hr2 : Mont p (modpMontymul r r p p0i) (Rf p ^ 2 ^ (i + 1)) := by
        have := Mont.mul M hr hr
        rwa [← pow_add, ← two_mul, ← pow_succ'] at this
      refine ih (i + 1) _ _ (by omega) hr2 ?_
      have hb : x % 2 ^ (i + 1) = x % 2 ^ i + 2 ^ i * (x / 2 ^ i % 2) := by rw [pow_succ, Nat.mod_mul]
      have ha : x &&& 2 ^ i = 2 ^ i * (x / 2 ^ i % 2) := by
        rw [Nat.and_two_pow, Nat.testBit_eq_decide_div_mod_eq]
        rcases (show x / 2 ^ i % 2 = 0 ∨ x / 2 ^ i % 2 = 1 by omega) with h | h <;> simp [h]
      rw [ha]
      rcases (show x / 2 ^ i % 2 = 0 ∨ x / 2 ^ i % 2 = 1 by omega) with h | h
      · rw [h, mul_zero, if_neg (by simp), hb, h, mul_zero, add_zero]; exact hz
      · rw [h, mul_one, if_pos (by positivity), hb, h, mul_one, pow_add]
        exact Mont.mul M hz hr
    · next h =>
      have : x % 2 ^ i = x := Nat.mod_eq_of_lt (by omega)
      rw [this] at hz; exact hz

theorem modpRx_spec {p p0i : ℕ} (M : Modulus p p0i) (x : ℕ) (h1 : 1 ≤ x) (h2 : x < 2147483648) : modpRx x p p0i (modpR2 p p0i) = 2 ^ (31 * x) % p := by
  have hs : sub32 x 1 = x - 1 := by unfold sub32; omega
  have h := rxLoop_spec M (x - 1) (by omega) 32 0 (modpR2 p p0i) (modpR p) (by omega) (by rw [pow_zero, pow_one]; exact modpR2_eq M)
    (by rw [pow_zero, Nat.mod_one, pow_zero]; exact mont_R M)
  have e : modpRx x p p0i (modpR2 p p0i) = modpRxLoop (x - 1) p p0i 32 0 (modpR2 p p0i) (modpR p) := by unfold modpRx; rw [hs]
  rw [e]
  have h3 := h.2
  rw [← pow_succ, Nat.sub_add_cancel h1] at h3
  have h4 : ((modpRxLoop (x - 1) p p0i 32 0 (modpR2 p p0i) (modpR p) : ℕ) : ZMod p) = ((2 ^ (31 * x) : ℕ) : ZMod p) := by
    rw [h3]; unfold Rf; push_cast; rw [pow_mul]; norm_num
  rw [ZMod.natCast_eq_natCast_iff] at h4
  have := Nat.mod_eq_of_lt h.1
  rw [← this]; exact h4

/-! ## Signed numbers -/

theorem pow31 (k : ℕ) : (2 : ℕ) ^ (31 * k) = 2147483648 ^ k := by rw [pow_mul]; norm_num

/-- The top bit tells the sign. -/
theorem topBit (d : List ℕ) (hd : Words d) (h0 : d.length ≠ 0) : d[d.length - 1]! >>> 30 = if 2 * big d < 2147483648 ^ d.length then 0 else 1 := by
  obtain ⟨l, w, rfl⟩ : ∃ l w, d = l ++ [w] := by
    rcases List.eq_nil_or_concat d with rfl | ⟨l, w, rfl⟩
    · simp at h0
    · exact ⟨l, w, List.concat_eq_append⟩
  have hw : w < 2147483648 := hd w (by simp)
  have hl : big l < 2147483648 ^ l.length := big_lt l fun x hx => hd x (by simp [hx])
  have e : (l ++ [w])[(l ++ [w]).length - 1]! = w := by simp
  rw [e, big_append, List.length_append, List.length_singleton, pow_succ, Nat.shiftRight_eq_div_pow]
  have hb : big [w] = w := by simp [big]
  rw [hb]
  generalize 2147483648 ^ l.length = B at *
  have hw2 : w / 2 ^ 30 = if w < 1073741824 then 0 else 1 := by split <;> omega
  rw [hw2]
  by_cases c : w < 1073741824
  · have : B * w ≤ B * 1073741823 := Nat.mul_le_mul_left _ (by omega)
    rw [if_pos c, if_pos (by omega)]
  · have : B * 1073741824 ≤ B * w := Nat.mul_le_mul_left _ (by omega)
    rw [if_neg c, if_neg (by omega)]

theorem sbig_eq (d : List ℕ) : sbig d = if 2 * big d < 2147483648 ^ d.length then (big d : ℤ) else (big d : ℤ) - 2147483648 ^ d.length := by
  unfold sbig
  rw [pow31]
  have : (2 : ℤ) ^ (31 * d.length) = 2147483648 ^ d.length := by rw [pow_mul]; norm_num
  rw [this]

theorem modSigned_spec {p p0i : ℕ} (M : Modulus p p0i) (d : List ℕ) (hd : Words d) (hl : d.length < 2147483648) :
    (zintModSmallSigned d p p0i (modpR2 p p0i) (modpRx d.length p p0i (modpR2 p p0i)) : ℤ) = sbig d % p := by
  have hhi := M.hi
  have hlo := M.lo
  unfold zintModSmallSigned
  by_cases h0 : d.length = 0
  · obtain rfl := List.length_eq_zero_iff.1 h0
    simp [sbig, big]
  · rw [if_neg h0, topBit d hd h0, modUnsigned_spec M d hd, modpRx_spec M _ (by omega) hl, sbig_eq]
    have hp : 0 < p := by omega
    have hx := Nat.mod_lt (big d) hp
    have hy := Nat.mod_lt (2 ^ (31 * d.length)) hp
    split
    · rw [mask0, modpSub_eq hhi _ _ hx hp, Nat.sub_zero, Nat.add_mod_right, Nat.mod_mod]
      push_cast; rfl
    · rw [mask1 _ (by omega), modpSub_eq hhi _ _ hx hy]
      have e1 := Nat.div_add_mod (2 ^ (31 * d.length)) p
      have e2 := Nat.div_add_mod (big d) p
      rw [pow31] at *
      have : (2147483648 : ℤ) ^ d.length = ((2147483648 ^ d.length : ℕ) : ℤ) := by push_cast; rfl
      rw [this]
      generalize 2147483648 ^ d.length = B at *
      push_cast
      rw [Nat.cast_sub hy.le]
      apply Int.ModEq.eq
      rw [Int.modEq_iff_dvd]
      push_cast
      have a1 : ((big d : ℕ) : ℤ) = p * (big d / p) + big d % p := by exact_mod_cast e2.symm
      have a2 : ((B : ℕ) : ℤ) = p * (B / p) + B % p := by exact_mod_cast e1.symm
      refine ⟨(big d / p : ℤ) - (B / p : ℤ) - 1, ?_⟩
      generalize ((big d : ℤ) / p) = q1 at *
      generalize ((B : ℤ) / p) = q2 at *
      linear_combination a1 - a2

/-! ## Normalization -/

theorem normZeroStep_spec (x w r bb X P : ℕ) (hx : x < 2147483648) (hw : w < 2147483648) (hb : bb = P % 2)
    (hr : r = if P / 2 < X then 4294967295 else if P / 2 = X then 0 else 1) :
    normZeroStep (x, w) (r, bb) =
      ((if (w + 2147483648 * P) / 2 < x + 2147483648 * X then 4294967295 else if (w + 2147483648 * P) / 2 = x + 2147483648 * X then 0 else 1), (w + 2147483648 * P) % 2) := by
  have hwp : (w >>> 1) ||| ((bb <<< 30) % 4294967296) = w / 2 + 1073741824 * bb := by
    rw [Nat.shiftRight_eq_div_pow, pow_one, Nat.shiftLeft_eq, Nat.mod_eq_of_lt (by omega), Nat.or_comm, Nat.mul_comm bb]
    have := Nat.two_pow_add_eq_or_of_lt (i := 30) (b := w / 2) (by omega) bb
    rw [show (2 : ℕ) ^ 30 = 1073741824 by norm_num] at this ⊢
    omega
  have h1 : (w &&& 1) = (w + 2147483648 * P) % 2 := by rw [Nat.and_one_is_mod]; omega
  unfold normZeroStep
  dsimp only
  rw [hwp, h1]
  congr 1
  have hd : (w + 2147483648 * P) / 2 = (w / 2 + 1073741824 * bb) + 2147483648 * (P / 2) := by omega
  rw [hd]
  generalize P / 2 = Q at *
  have hv : w / 2 + 1073741824 * bb < 2147483648 := by omega
  generalize w / 2 + 1073741824 * bb = v at *
  have hcc : (neg32 (sub32 v x) >>> 31) ||| neg32 (sub32 v x >>> 31) = if v < x then 4294967295 else if v = x then 0 else 1 := by
    rw [shr31, shr31]
    by_cases c : v < x
    · have e1 : sub32 v x / 2147483648 = 1 := by unfold sub32; omega
      have e2 : neg32 (sub32 v x) / 2147483648 = 0 := by unfold neg32 sub32; omega
      rw [e1, e2, if_pos c]; rfl
    · have e1 : sub32 v x / 2147483648 = 0 := by unfold sub32; omega
      rw [e1, if_neg c]
      by_cases c2 : v = x
      · have e2 : neg32 (sub32 v x) / 2147483648 = 0 := by unfold neg32 sub32; omega
        rw [e2, if_pos c2]; rfl
      · have e2 : neg32 (sub32 v x) / 2147483648 = 1 := by unfold neg32 sub32; omega
        rw [e2, if_neg c2]; rfl
  rw [hcc, hr]
  by_cases c : Q < X
  · rw [if_pos c, if_pos (show v + 2147483648 * Q < x + 2147483648 * X by omega)]
    split
    · rfl
    · split <;> rfl
  · rw [if_neg c]
    by_cases c2 : Q = X
    · rw [if_pos c2, c2]
      by_cases d : v < x
      · rw [if_pos d, if_pos (by omega)]; rfl
      · rw [if_neg d, if_neg (show ¬ (v + 2147483648 * X < x + 2147483648 * X) by omega)]
        by_cases d2 : v = x
        · rw [if_pos d2, if_pos (by omega)]; rfl
        · rw [if_neg d2, if_neg (by omega)]; rfl
    · rw [if_neg c2, if_neg (show ¬ (v + 2147483648 * Q < x + 2147483648 * X) by omega), if_neg (show ¬ (v + 2147483648 * Q = x + 2147483648 * X) by omega)]
      split
      · rfl
      · split <;> rfl

theorem normZero_cmp (x p : List ℕ) (hl : x.length = p.length) (hx : Words x) (hp : Words p) :
    (x.zip p).foldr normZeroStep (0, 0) = ((if big p / 2 < big x then 4294967295 else if big p / 2 = big x then 0 else 1), big p % 2) := by
  induction x generalizing p with
  | nil =>
    obtain rfl := List.length_eq_zero_iff.1 hl.symm
    rfl
  | cons a x ih =>
    cases p with
    | nil => simp at hl
    | cons b p =>
      rw [List.zip_cons_cons, List.foldr_cons, ih p (by simpa using hl) hx.tail hp.tail, big_cons, big_cons]
      exact normZeroStep_spec a b _ _ (big x) (big p) hx.head hp.head rfl rfl

theorem normZero_spec (x p : List ℕ) (hl : x.length = p.length) (hx : Words x) (hp : Words p) (hlt : big x < big p) (hodd : big p % 2 = 1) :
    (zintNormZero x p).length = x.length ∧ Words (zintNormZero x p) ∧ sbig (zintNormZero x p) = if 2 * big x < big p then (big x : ℤ) else (big x : ℤ) - big p := by
  unfold zintNormZero
  rw [normZero_cmp x p hl hx hp]
  dsimp only
  have hP := big_lt p hp
  rw [← hl] at hP
  by_cases c : big p / 2 < big x
  · rw [if_pos c]
    obtain ⟨a', c', e, e1, e2, e3, -, e5⟩ := zintSub_spec x p hl hx hp 1 (by omega)
    rw [show 4294967295 >>> 31 = 1 by decide, e]
    refine ⟨e1, e2, ?_⟩
    dsimp only
    have h5 := e5 rfl
    rw [if_pos hlt] at e3
    rw [e3, one_mul] at h5
    rw [sbig_eq, e1, if_neg (by omega), if_neg (by omega)]
    have : (2147483648 : ℤ) ^ x.length = ((2147483648 ^ x.length : ℕ) : ℤ) := by push_cast; rfl
    rw [this]; omega
  · obtain ⟨a', c', e, e1, e2, e3, e4, -⟩ := zintSub_spec x p hl hx hp 0 (by omega)
    have hz : (if big p / 2 < big x then 4294967295 else if big p / 2 = big x then 0 else 1) >>> 31 = 0 := by
      rw [if_neg c]; split <;> rfl
    rw [hz, e]
    dsimp only
    rw [e4 rfl]
    refine ⟨rfl, hx, ?_⟩
    rw [sbig_eq, if_pos (by omega), if_pos (by omega)]

/-! ## Chinese remainders -/

/-- `x` is the array of an integer when the first `c` primes have been handled; `o` holds the residues. -/
def CrtInv (xlen c : ℕ) (o x : List ℕ) : Prop :=
  x.length = xlen ∧ Words (x.take c) ∧ big (x.take c) < (primeList.take c).prod ∧ (∀ i < c, big (x.take c) % primeList[i]! = o[i]!) ∧ x.drop c = o.drop c

theorem primeList_length : primeList.length = 521 := by unfold primeList; rw [List.length_map, primes_length]

theorem primes_fst (i : ℕ) (hi : i < 521) : (primes[i]!).1 = primeList[i]! := by
  unfold primeList
  rw [getElem!_pos primes i (by rw [primes_length]; exact hi), getElem!_pos _ i (by rw [List.length_map, primes_length]; exact hi), List.getElem_map]

theorem prod_succ (c : ℕ) (hc : c < 521) : (primeList.take (c + 1)).prod = (primeList.take c).prod * primeList[c]! := by
  rw [List.take_add_one, List.getElem?_eq_getElem (by rw [primeList_length]; exact hc), List.prod_append, getElem!_pos _ c (by rw [primeList_length]; exact hc)]
  simp

theorem dvd_prod (c i : ℕ) (hc : c ≤ 521) (hi : i < c) : primeList[i]! ∣ (primeList.take c).prod := by
  apply List.dvd_prod
  rw [getElem!_pos _ i (by rw [primeList_length]; omega), List.mem_take_iff_getElem]
  exact ⟨i, by rw [primeList_length]; omega, rfl⟩

theorem crtStep_spec (xlen c : ℕ) (h1 : 1 ≤ c) (hc : c < xlen) (hx5 : xlen ≤ 521) (tmp : List ℕ) (ht : Words tmp) (htl : tmp.length = c) (htb : big tmp = (primeList.take c).prod)
    (o x : List ℕ) (ho : o[c]! < primeList[c]!) (h : CrtInv xlen c o x) :
    CrtInv xlen (c + 1) o (crtStep c primeList[c]! (primes[c]!).2.2 (modpNinv31 primeList[c]!) (modpR2 primeList[c]! (modpNinv31 primeList[c]!)) tmp x) := by
  obtain ⟨l, w, lt, res, dr⟩ := h
  have hc5 : c < 521 := by omega
  have M := modulus_table c hc5
  have E := C91_primes c hc5
  have hpc := prod_succ c hc5
  obtain ⟨p, hp⟩ : ∃ p, primeList[c]! = p := ⟨_, rfl⟩
  rw [hp] at M E hpc ho ⊢
  have : Fact p.Prime := ⟨M.prime⟩
  obtain ⟨p0i, hpi⟩ : ∃ p0i, modpNinv31 p = p0i := ⟨_, rfl⟩
  rw [hpi] at M ⊢
  obtain ⟨s, hs⟩ : ∃ s, (primes[c]!).2.2 = s := ⟨_, rfl⟩
  rw [hs] at E ⊢
  have xc : x[c]! = o[c]! := by
    have := congrArg (fun l => l[0]?) dr
    simp only [List.getElem?_drop, add_zero] at this
    rw [List.getElem!_eq_getElem?_getD, List.getElem!_eq_getElem?_getD, this]
  have pxq : Plain p (zintModSmallUnsigned (x.take c) p p0i (modpR2 p p0i)) ((big (x.take c) : ℕ) : ZMod p) := by
    rw [modUnsigned_spec M _ w]
    exact ⟨Nat.mod_lt _ M.prime.pos, by rw [ZMod.natCast_mod]⟩
  have pxp : Plain p o[c]! ((o[c]! : ℕ) : ZMod p) := ⟨ho, rfl⟩
  have hQ : ((primeList.take c).prod : ZMod p) ≠ 0 := by
    intro h0
    have hi := E.inv
    rw [h0, mul_zero] at hi
    exact Rf_ne M hi.symm
  have ms : Mont p s (((primeList.take c).prod : ZMod p))⁻¹ := ⟨E.slt, by rw [eq_inv_mul_iff_mul_eq₀ hQ, mul_comm]; exact E.inv⟩
  have pd := Plain.sub M pxp pxq
  have pr : Plain p (modpMontymul s (modpSub o[c]! (zintModSmallUnsigned (x.take c) p p0i (modpR2 p p0i)) p) p p0i) ((((primeList.take c).prod : ZMod p))⁻¹ * ((o[c]! : ℕ) - (big (x.take c) : ℕ))) := by
    refine ⟨montymul_lt M _ _ ms.1 pd.1, ?_⟩
    have h := cast_mm M s _ ms.1 pd.1
    rw [ms.2, pd.2] at h
    have := Rf_ne M
    have h2 : (((modpMontymul s (modpSub o[c]! (zintModSmallUnsigned (x.take c) p p0i (modpR2 p p0i)) p) p p0i) : ℕ) : ZMod p) * Rf p
        = ((((primeList.take c).prod : ZMod p))⁻¹ * ((o[c]! : ℕ) - (big (x.take c) : ℕ))) * Rf p := by rw [h]; ring
    exact mul_right_cancel₀ this h2
  unfold crtStep
  dsimp only
  rw [xc]
  generalize modpMontymul s (modpSub o[c]! (zintModSmallUnsigned (x.take c) p p0i (modpR2 p p0i)) p) p p0i = xr at *
  have lc : (x.take c).length = c := by rw [List.length_take]; omega
  have hxr := pr.1
  have hhi := M.hi
  obtain ⟨i1, i2, i3⟩ := addMulSmall_spec xr (by omega) (x.take c) tmp (by rw [lc, htl]) w ht 0 (by norm_num)
  rw [lc] at i1
  generalize zintAddMulSmall xr (x.take c) tmp 0 = A at *
  have tk : (A ++ x.drop (c + 1)).take (c + 1) = A := by rw [← i1, List.take_left]
  have dk : (A ++ x.drop (c + 1)).drop (c + 1) = x.drop (c + 1) := by
    have := List.drop_left (l₁ := A) (l₂ := x.drop (c + 1))
    rwa [i1] at this
  rw [htb, add_zero] at i3
  refine ⟨by rw [List.length_append, i1, List.length_drop]; omega, by rw [tk]; exact i2, ?_, ?_, ?_⟩
  · rw [tk, i3, hpc]
    calc big (x.take c) + (primeList.take c).prod * xr < (primeList.take c).prod + (primeList.take c).prod * xr := by omega
      _ = (primeList.take c).prod * (xr + 1) := by ring
      _ ≤ _ := Nat.mul_le_mul_left _ hxr
  · intro i hi
    rw [tk, i3]
    rcases Nat.lt_or_ge i c with h | h
    · obtain ⟨k, hk⟩ := dvd_prod c i (by omega) h
      rw [hk, mul_assoc, Nat.add_mul_mod_self_left]
      exact res i h
    · obtain rfl : i = c := by omega
      rw [hp]
      have e : ((big (x.take i) + (primeList.take i).prod * xr : ℕ) : ZMod p) = ((o[i]! : ℕ) : ZMod p) := by
        have p2 := pr.2
        generalize (primeList.take i).prod = Q at *
        push_cast
        rw [p2, ← mul_assoc, mul_inv_cancel₀ hQ]; ring
      rw [ZMod.natCast_eq_natCast_iff] at e
      have := Nat.mod_eq_of_lt ho
      rw [← this]; exact e
  · rw [dk]
    have := congrArg (List.drop 1) dr
    rwa [List.drop_drop, List.drop_drop] at this

theorem crtLoop_spec (xlen k : ℕ) (hk : k + 1 ≤ xlen) (hx5 : xlen ≤ 521) (xx : List (List ℕ)) (hl : ∀ o ∈ xx, o.length = xlen) (ho : ∀ o ∈ xx, ∀ i < xlen, o[i]! < primeList[i]!) :
    ∃ yy tmp, (List.range k).foldl (fun st u => crtRound primes st (u + 1)) (xx, [(primes[0]!).1]) = (yy, tmp) ∧ List.Forall₂ (CrtInv xlen (k + 1)) xx yy ∧
      Words tmp ∧ tmp.length = k + 1 ∧ big tmp = (primeList.take (k + 1)).prod := by
  induction k with
  | zero =>
    refine ⟨xx, [(primes[0]!).1], rfl, ?_, ?_, rfl, ?_⟩
    · rw [List.forall₂_same]
      intro o h
      have h0 := ho o h 0 (by omega)
      have hlo := hl o h
      have ht : o.take 1 = [o[0]!] := by
        cases o with
        | nil => simp at hlo; omega
        | cons a o => simp
      refine ⟨hlo, ?_, ?_, ?_, rfl⟩
      · rw [zero_add, ht]
        exact words_cons (h0.trans (prime_lt 0 (by omega))) words_nil
      · rw [prod_succ 0 (by omega), zero_add, ht]
        simpa [big] using h0
      · intro i hi
        obtain rfl : i = 0 := by omega
        rw [zero_add, ht]
        simp only [big, mul_zero, add_zero]
        exact Nat.mod_eq_of_lt h0
    · rw [primes_fst 0 (by omega)]
      exact words_cons (prime_lt 0 (by omega)) words_nil
    · rw [prod_succ 0 (by omega), primes_fst 0 (by omega)]
      simp [big]
  | succ k ih =>
    obtain ⟨yy, tmp, e, f, w, l, b⟩ := ih (by omega)
    have hk5 : k + 1 < 521 := by omega
    rw [List.range_succ, List.foldl_append, e, List.foldl_cons, List.foldl_nil]
    obtain ⟨m', c', e1, e2, e3, e4, e5⟩ := mulSmall_spec (primeList[k + 1]!) (prime_lt (k + 1) hk5) tmp w 0 (by norm_num)
    refine ⟨_, _, rfl, ?_, ?_, ?_, ?_⟩
    · show List.Forall₂ _ _ (yy.map _)
      rw [List.forall₂_map_right_iff]
      rw [List.forall₂_iff_get] at f ⊢
      refine ⟨f.1, fun i h1 h2 => ?_⟩
      rw [primes_fst _ hk5]
      exact crtStep_spec xlen (k + 1) (by omega) (by omega) hx5 tmp w l b _ _ (ho _ (List.get_mem _ _) (k + 1) (by omega)) (f.2 i h1 h2)
    · show Words ((zintMulSmall (primes[k + 1]!).1 tmp 0).1 ++ [(zintMulSmall (primes[k + 1]!).1 tmp 0).2])
      rw [primes_fst _ hk5, e1]
      exact words_append e3 (words_cons e4 words_nil)
    · show ((zintMulSmall (primes[k + 1]!).1 tmp 0).1 ++ [(zintMulSmall (primes[k + 1]!).1 tmp 0).2]).length = _
      rw [primes_fst _ hk5, e1, List.length_append, e2, l]; rfl
    · show big ((zintMulSmall (primes[k + 1]!).1 tmp 0).1 ++ [(zintMulSmall (primes[k + 1]!).1 tmp 0).2]) = _
      rw [primes_fst _ hk5, e1, big_append, prod_succ _ hk5, e2, ← b]
      have : big [c'] = c' := by simp [big]
      rw [this, mul_comm _ c', e5, add_zero]

theorem prod_odd (c : ℕ) (hc : c ≤ 521) : (primeList.take c).prod % 2 = 1 := by
  induction c with
  | zero => rfl
  | succ c ih =>
    rw [prod_succ c (by omega), Nat.mul_mod, ih (by omega)]
    have := (C91_primes c (by omega)).one
    omega

/-- **C101**: `zint_rebuild_CRT` turns residues modulo the first `xlen` primes into the integer with these residues in `[0, P)`, or in `(-P/2, P/2)` in two's complement. -/
theorem C101_crt (xlen : ℕ) (h1 : 1 ≤ xlen) (hx5 : xlen ≤ 521) (xx : List (List ℕ)) (hl : ∀ o ∈ xx, o.length = xlen) (ho : ∀ o ∈ xx, ∀ i < xlen, o[i]! < primeList[i]!) :
    List.Forall₂ (fun o y => y.length = xlen ∧ Words y ∧ big y < (primeList.take xlen).prod ∧ ∀ i < xlen, big y % primeList[i]! = o[i]!) xx (zintRebuildCRT xx xlen primes false) ∧
    List.Forall₂ (fun o y => y.length = xlen ∧ Words y ∧ 2 * |sbig y| < (primeList.take xlen).prod ∧ ∀ i < xlen, sbig y % (primeList[i]! : ℕ) = (o[i]! : ℕ)) xx (zintRebuildCRT xx xlen primes true) := by
  obtain ⟨yy, tmp, e, f, w, l, b⟩ := crtLoop_spec xlen (xlen - 1) (by omega) hx5 xx hl ho
  rw [Nat.sub_add_cancel h1] at f l b
  have hodd := prod_odd xlen hx5
  unfold zintRebuildCRT
  rw [e]
  simp only [if_true, if_false, Bool.false_eq_true]
  have base : ∀ o y, CrtInv xlen xlen o y → y.length = xlen ∧ Words y ∧ big y < (primeList.take xlen).prod ∧ ∀ i < xlen, big y % primeList[i]! = o[i]! := by
    intro o y h
    have ht : y.take xlen = y := by rw [← h.1]; exact List.take_length
    obtain ⟨h1, h2, h3, h4, -⟩ := h
    rw [ht] at h2 h3 h4
    exact ⟨h1, h2, h3, h4⟩
  refine ⟨f.imp base, ?_⟩
  rw [List.forall₂_map_right_iff]
  refine f.imp fun o y h => ?_
  obtain ⟨h1, h2, h3, h4⟩ := base o y h
  rw [← b] at h3 hodd ⊢
  obtain ⟨n1, n2, n3⟩ := normZero_spec y tmp (by omega) h2 w h3 hodd
  refine ⟨by omega, n2, ?_, fun i hi => ?_⟩
  · rw [n3]
    split
    · rw [abs_of_nonneg (by omega)]; omega
    · rw [abs_of_nonpos (by omega)]; omega
  · rw [n3]
    have h5 := h4 i hi
    have h6 : ((big y : ℕ) : ℤ) % primeList[i]! = o[i]! := by exact_mod_cast h5
    split
    · exact h6
    · obtain ⟨k, hk⟩ := dvd_prod xlen i hx5 hi
      rw [b, hk]; push_cast
      rw [Int.sub_mul_emod_self_left]; exact h6

end Verif.CRef.Kg
