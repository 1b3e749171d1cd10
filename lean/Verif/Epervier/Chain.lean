import Verif.Epervier.PyProps

/-! # Agreement between Python and the contract: C65; a concrete signature for C40 -/

namespace Verif.Epervier

open Verif Verif.Packing Verif.NTT Verif.Ring Verif.Contract Verif.Falcon Verif.Hash Verif.Encoding.Spec

theorem signed_le (x : ℤ) : signed (x % 12289).toNat * signed (x % 12289).toNat ≤ x * x := by
  unfold signed
  have h1 := Int.emod_nonneg x (show (12289 : ℤ) ≠ 0 by decide)
  have h2 := Int.emod_lt_of_pos x (show (0 : ℤ) < 12289 by decide)
  have h3 : (((x % 12289).toNat : ℕ) : ℤ) = x % 12289 := Int.toNat_of_nonneg h1
  rw [h3]
  set s : ℤ := if (x % 12289).toNat > 6144 then x % 12289 - 12289 else x % 12289 with hs
  have h4 : -6144 ≤ s ∧ s ≤ 6144 ∧ (s = x ∨ x < -6144 ∨ 6144 < x) := by
    rw [hs]; split <;> omega
  clear_value s
  obtain ⟨a, b, rfl | c | c⟩ := h4
  · exact le_refl _
  · nlinarith
  · nlinarith

theorem normSq_signed (k : ℕ) (a : List ℤ) : normSq (((redN a).take k).map signed) ≤ normSq a := by
  unfold normSq redN
  induction a generalizing k with
  | nil => simp
  | cons x a ih =>
    cases k with
    | zero => simpa using add_nonneg (mul_self_nonneg x) (List.sum_nonneg (by intro y hy; obtain ⟨z, _, rfl⟩ := List.mem_map.1 hy; exact mul_self_nonneg z))
    | succ k =>
      simp only [List.map_cons, List.take_succ_cons, List.sum_cons]
      exact add_le_add (signed_le x) (ih k)

/-- A pair `s0 + s1*h = c` of small norm, packed, is accepted by the contract with a correct hint, which returns the address of the transform of `h`. -/
theorem chain_core (hp : Bytes → Bytes → ℕ → Option (List ℕ)) (msgs salt : Bytes) (hlen : ∀ fuel c, hp salt msgs fuel = some c → c.length = 512) (hs : salt.length = 40)
    (P : PolyLib) (L : NttLaw P 512 root) (h s0 s1 : List ℤ) (c : List ℕ) (fuel : ℕ) (hc : hp salt msgs fuel = some c) (hl : h.length = 512)
    (hI : IsPreimage 512 h (List.map (fun x : ℕ => (x : ℤ)) c) s0 s1) (hn : normSq s0 + normSq s1 ≤ 34034726) (hint : ℕ)
    (hh : (hint : ZMod 12289) * ∏ j ∈ Finset.range 512, ev (root j) s1 = 1) :
    RecoverReturns hp msgs salt (packPoly s0) (packPoly s1) hint (address ((P.ntt h).map Int.toNat)) := by
  obtain ⟨l0, l1, he⟩ := hI
  obtain ⟨p1, p2⟩ := packPoly_spec s0 l0
  obtain ⟨r1, r2⟩ := packPoly_spec s1 l1
  obtain ⟨t1, t2, t3⟩ := L.ntt h hl
  have hv : ∀ j, value (redN s1) j = ev (root j) s1 := fun j => by rw [value_ev, toZ_redN, ev_zq]
  have lc := hlen fuel c hc
  refine (C39_recover_iff hp msgs salt hlen _ _ hint _).2 ⟨hs, p1, r1, ?_, ?_, c, redN h, _, ⟨fuel, hc⟩, ⟨by rw [length_redN, hl], redN_lt h⟩, ?_, ⟨⟨by rw [List.length_map, t1], ?_⟩, ?_⟩, rfl⟩
  · rw [p2, r2]
    have := normSq_signed 511 s0
    have := normSq_signed 511 s1
    linarith
  · rw [r2, Finset.prod_congr rfl fun j _ => hv j]; exact hh
  · rw [p2, r2]
    unfold Equation
    have hw : zq ((redN s0).map wrapped) = zq s0 := by
      rw [← toZ_redN s0]
      unfold zq NTT.toZ
      rw [List.map_map]
      refine List.map_congr_left fun x hx => ?_
      have := redN_lt s0 x hx
      dsimp only [Function.comp]
      unfold wrapped
      rw [if_neg (by omega), Int.cast_natCast]
    have hcz : NTT.toZ 12289 c = zq (List.map (fun x : ℕ => (x : ℤ)) c) := by
      unfold zq NTT.toZ
      rw [List.map_map]
      exact List.map_congr_left fun x _ => (Int.cast_natCast x).symm
    rw [hw, toZ_redN, toZ_redN, hcz, ← he]
    have lz0 : (zq s0).length = 512 := by rw [length_zq, l0]
    apply toZ_ext _ _ (length_negMul ..) (by rw [List.length_zipWith, List.length_zipWith, length_negMul, lz0]; rfl)
    intro i hi
    have e1 := ev_negMul (root i) 512 (root_pow i hi) (zq h) (zq s1) (by rw [length_zq, hl]) (by rw [length_zq, l1])
    have e2 := ev_negMul (root i) 512 (root_pow i hi) (zq s1) (zq h) (by rw [length_zq, l1]) (by rw [length_zq, hl])
    rw [ev_zipWith_sub _ 512 _ _ (by rw [List.length_zipWith, length_negMul, lz0]; rfl) lz0, ev_zipWith_add _ 512 _ _ lz0 (length_negMul ..), e1, e2]
    ring
  · intro x hx
    obtain ⟨y, hy, rfl⟩ := List.mem_map.1 hx
    have := t2 y hy
    omega
  · intro i hi
    have e := t3 i hi
    have : NTT.toZ 12289 (redN h) = zq h := toZ_redN h
    rw [this, ← e]
    have hi' : i < (P.ntt h).length := by omega
    have hm := t2 _ (List.getElem_mem hi')
    rw [List.getD_eq_getElem?_getD, List.getD_eq_getElem?_getD, List.getElem?_map, List.getElem?_eq_getElem hi', Option.map_some, Option.getD_some, Option.getD_some]
    rw [← Int.cast_natCast, Int.toNat_of_nonneg hm.1]

theorem foldl_hint (l : List ℤ) (hr : Reduced l) (a : ℤ) (ha : 0 ≤ a) :
    (((l.foldl (fun hint elt => hint * elt % 12289) a).toNat : ℕ) : ZMod 12289) = (a : ZMod 12289) * (l.map fun x : ℤ => (x : ZMod 12289)).prod := by
  induction l generalizing a with
  | nil => rw [List.foldl_nil, List.map_nil, List.prod_nil, mul_one, ← Int.cast_natCast, Int.toNat_of_nonneg ha]
  | cons x l ih =>
    rw [List.foldl_cons, ih (fun y hy => hr y (List.mem_cons_of_mem _ hy)) _ (Int.emod_nonneg _ (by decide)), List.map_cons, List.prod_cons, cast_emod, Int.cast_mul]
    ring

theorem list_prod_range (l : List ℤ) (f : ℕ → ZMod 12289) (h : ∀ i (hi : i < l.length), ((l[i] : ℤ) : ZMod 12289) = f i) :
    (l.map fun x : ℤ => (x : ZMod 12289)).prod = ∏ j ∈ Finset.range l.length, f j := by
  induction l generalizing f with
  | nil => simp
  | cons x l ih =>
    rw [List.map_cons, List.prod_cons, List.length_cons, Finset.prod_range_succ', ih (fun i => f (i + 1)) (fun i hi => h (i + 1) (by simpa using hi)), mul_comm]
    have := h 0 (by simp)
    rw [List.getElem_cons_zero] at this
    rw [this]

/-- The hint computed by the command-line tool is the inverse of the product of the values of `s1`. -/
theorem cli_hint (P : PolyLib) (L : NttLaw P 512 root) (I : InvLaw P 512) (b i s1 : List ℤ) (lb : b.length = 512) (hb : zq b = zq s1) (hi : P.inverse b = some i) :
    ((((P.ntt i).foldl (fun hint elt => hint * elt % 12289) 1).toNat : ℕ) : ZMod 12289) * ∏ j ∈ Finset.range 512, ev (root j) s1 = 1 := by
  obtain ⟨i1, i2⟩ := I.inv b i lb hi
  obtain ⟨t1, t2, _⟩ := L.ntt i i1
  rw [foldl_hint _ t2 1 (by decide), Int.cast_one, one_mul, list_prod_range (P.ntt i) (fun j => ev (root j) i), t1, ← Finset.prod_mul_distrib]
  · apply Finset.prod_eq_one
    intro j hj
    have hj := Finset.mem_range.1 hj
    have := congrArg (ev (root j)) i2
    rw [ev_negMul _ 512 (root_pow j hj) _ _ (by rw [length_zq, lb]) (by rw [length_zq, i1]), hb, ev_zq, ev_zq, one, ev_const, map_one] at this
    rw [mul_comm]; exact this
  · intro j hj
    have := L.ev_ntt i i1 j (by omega)
    rw [List.getD_eq_getElem?_getD, List.getElem?_eq_getElem hj, Option.getD_some] at this
    exact this

theorem cli_args (P : PolyLib) (L : NttLaw P 512 root) (I : InvLaw P 512) (sig : Bytes) (s0 s1 : List ℤ) (he : EncodesPair 512 666 sig s0 s1)
    (hu : ∀ i < 512, ev (root i) s1 ≠ 0) :
    ∃ hint, cliRecoverArgs P sig = .ok (saltOf sig, packPoly s0, packPoly s1, hint) ∧ (hint : ZMod 12289) * ∏ j ∈ Finset.range 512, ev (root j) s1 = 1 := by
  have hd := (decode_pair 512 666 (by norm_num) sig _).2 ⟨s0, s1, rfl, he⟩
  obtain ⟨q1, q2⟩ := halves he.2.1 he.2.2.1
  have l0 : (redN s0).length = 512 := by rw [length_redN, he.2.1]
  have l1 : (redN s1).length = 512 := by rw [length_redN, he.2.2.1]
  have g0 : falconCompact (redN s0) = .ok (packPoly s0) := solCompact_eq_falconCompact (redN s0) (fun _ => 0) l0 (fun x hx => by have := redN_lt s0 x hx; omega)
  have g1 : falconCompact (redN s1) = .ok (packPoly s1) := solCompact_eq_falconCompact (redN s1) (fun _ => 0) l1 (fun x hx => by have := redN_lt s1 x hx; omega)
  have hb : zq (liftZ (redN s1)) = zq s1 := by rw [zq_liftZ, toZ_redN]
  have lb : (liftZ (redN s1)).length = 512 := by rw [length_liftZ, l1]
  have hunit := (L.unit_iff (by norm_num) (liftZ (redN s1)) lb).1 (by
    intro x hx h0
    obtain ⟨t1, _, _⟩ := L.ntt _ lb
    obtain ⟨i, hi, rfl⟩ := List.getElem_of_mem hx
    rw [t1] at hi
    have := L.ev_ntt _ lb i hi
    rw [List.getD_eq_getElem?_getD, List.getElem?_eq_getElem (by omega), Option.getD_some, h0, ← ev_zq, hb, ev_zq, Int.cast_zero] at this
    exact hu i hi this.symm)
  obtain ⟨i, hi⟩ := I.inv_some _ lb hunit
  refine ⟨_, ?_, cli_hint P L I _ i s1 lb hb hi⟩
  unfold cliRecoverArgs
  dsimp only
  rw [hd]
  dsimp only
  rw [show List.map (fun x : ℤ => (x % 12289).toNat) (s0 ++ s1) = redN (s0 ++ s1) from rfl,
    show (redN (s0 ++ s1)).take ((s0 ++ s1).length / 2) = redN s0 by unfold redN; rw [← List.map_take, q1],
    show (redN (s0 ++ s1)).drop ((s0 ++ s1).length / 2) = redN s1 by unfold redN; rw [← List.map_drop, q2], g0, g1]
  dsimp only
  rw [show List.map (fun x : ℕ => (x : ℤ)) (redN s1) = liftZ (redN s1) from rfl, hi]
  rfl

theorem salt_len {n bytelen : ℕ} {sig : Bytes} {s0 s1 : List ℤ} (hn : 0 < n) (he : EncodesPair n bytelen sig s0 s1) : (saltOf sig).length = 40 := by
  have := he.long hn
  unfold saltOf
  rw [List.length_take, List.length_drop]
  omega

/-- From a Python recovery to the contract's, for whatever pair of hash functions that agree. -/
theorem chain (hp : Bytes → Bytes → ℕ → Option (List ℕ)) {S : Type} (X : Xof S) (P : PolyLib) (A : Arith P 512) (L : NttLaw P 512 root) (I : InvLaw P 512) (message sig : Bytes) (a : ℕ)
    (hlen : ∀ fuel c, hp (saltOf sig) message fuel = some c → c.length = 512)
    (hX : ∀ c, Returns X 512 message (saltOf sig) c → ∃ fuel, hp (saltOf sig) message fuel = some c)
    (h : PyRecoverReturns epervier P X 512 34034726 666 message sig (some a)) :
    ∃ salt cs1 cs2 hint, cliRecoverArgs P sig = .ok (salt, cs1, cs2, hint) ∧ RecoverReturns hp message salt cs1 cs2 hint a := by
  obtain ⟨s0, s1, he, hh, hn, c, hc, k, k1, k2, k3, k4⟩ := (C41_recover_iff epervier P X 512 34034726 666 (by norm_num) root A L (epervier_law L) message sig a).1 h
  have hu : ∀ i < 512, ev (root i) s1 ≠ 0 := by
    intro i hi h0
    have := hh i hi
    rw [← Polynomial.coe_aeval_eq_eval, aeval_toPoly, ev_zq, h0, mul_zero] at this
    exact zero_ne_one this
  obtain ⟨hint, c1, c2⟩ := cli_args P L I sig s0 s1 he hu
  obtain ⟨fuel, hf⟩ := hX c hc
  refine ⟨_, _, _, _, c1, ?_⟩
  have := chain_core hp message (saltOf sig) hlen (salt_len (by norm_num) he) P L k s0 s1 c fuel hf k1 k3 (by exact_mod_cast hn) hint c2
  have ha : keyAddress epervier P k = .ok (address ((P.ntt k).map Int.toNat)) := pyAddress_eq _ (L.ntt k k1).2.1
  rw [ha, Except.ok.injEq] at k4
  rw [← k4]; exact this

/-- **C65** (epervier): whenever the Python `recover` (SHAKE256) returns `a` on a signature, the arguments computed by the command-line tool from that signature make the contract return `a`. -/
theorem C65_nist (P : PolyLib) (A : Arith P 512) (L : NttLaw P 512 root) (I : InvLaw P 512) (message sig : Bytes) (hm : IsBytes message) (hs : IsBytes sig) (a : ℕ)
    (h : PyRecoverReturns epervier P shakeXof 512 34034726 666 message sig (some a)) :
    ∃ salt cs1 cs2 hint, cliRecoverArgs P sig = .ok (salt, cs1, cs2, hint) ∧ RecoverReturns Hash.Sol.hashToPointNIST message salt cs1 cs2 hint a := by
  have hsalt : IsBytes (saltOf sig) := fun x hx => hs x (List.mem_of_mem_drop (List.mem_of_mem_take hx))
  exact chain _ shakeXof P A L I message sig a (fun fuel c hc => (C24_nist_shape _ message hsalt hm c ⟨fuel, hc⟩).1) (fun c hc => (C24_nist _ _ hsalt hm c).1 hc) h

/-- **C65** (ethepervier): the same with Keccak. -/
theorem C65_evm (H : Bytes → Bytes) (hH : ∀ x, (H x).length = 32) (hb : ∀ x, IsBytes (H x)) (P : PolyLib) (A : Arith P 512) (L : NttLaw P 512 root) (I : InvLaw P 512)
    (message sig : Bytes) (a : ℕ) (h : PyRecoverReturns epervier P (keccakPrng H) 512 34034726 666 message sig (some a)) :
    ∃ salt cs1 cs2 hint, cliRecoverArgs P sig = .ok (salt, cs1, cs2, hint) ∧ RecoverReturns (Hash.Sol.hashToPointEVM H) message salt cs1 cs2 hint a :=
  chain _ (keccakPrng H) P A L I message sig a (fun fuel c hc => (C24_evm_shape H hH hb _ message c ⟨fuel, hc⟩).1) (fun c hc => C24_evm H hH hb _ _ c hc) h

/-- The points of the library model in dimension 512 are those of the contract. -/
theorem wk_root (i : ℕ) (hi : i < 512) : wk 9 i = root i := by
  rw [← node_root i hi]
  unfold wk
  have hf : ∀ j < 512, ((psiRev[j]! : ℕ) : ZMod 12289) = ((chunk fwWords j : ℕ) : ZMod 12289) := fun j hj => by
    obtain ⟨e1, e2, _⟩ := C34_forward_tables j hj
    rw [e1, e2]
  unfold NTT.node
  rw [show 2 ^ 9 = 512 by norm_num]
  dsimp only
  rw [hf _ (by omega)]

theorem lib_ntt_root : NttLaw (lib 512) 512 root := by
  have L := libNtt 9 (by norm_num) (by norm_num)
  rw [show (2 : ℕ) ^ 9 = 512 by norm_num] at L
  exact ⟨fun i hi => by rw [← wk_root i hi]; exact L.root i hi, fun a ha => ⟨(L.ntt a ha).1, (L.ntt a ha).2.1, fun i hi => by rw [← wk_root i hi]; exact (L.ntt a ha).2.2 i hi⟩, L.intt, L.left, L.vec⟩

/-- **C65** for the library model, without assumptions on `polyntt`. -/
theorem C65_lib (message sig : Bytes) (hm : IsBytes message) (hs : IsBytes sig) (a : ℕ)
    (h : PyRecoverReturns epervier (lib 512) shakeXof 512 34034726 666 message sig (some a)) :
    ∃ salt cs1 cs2 hint, cliRecoverArgs (lib 512) sig = .ok (salt, cs1, cs2, hint) ∧ RecoverReturns Hash.Sol.hashToPointNIST message salt cs1 cs2 hint a := by
  have A := libArith 9 (by norm_num) (by norm_num)
  have I := libInv 9 (by norm_num) (by norm_num)
  rw [show (2 : ℕ) ^ 9 = 512 by norm_num] at A I
  exact C65_nist _ A lib_ntt_root I message sig hm hs a h

/-- Non-vacuity of C65 (and of C41): for every message with a hash there is a signature, with `s0 = 0` and `s1 = 1`, from which Python recovers some key. -/
theorem recover_exists {S : Type} (X : Xof S) (P : PolyLib) (n bound bytelen : ℕ) (hn : 0 < n) (hb : 1 ≤ bound) (hlen : 18 * n ≤ 8 * (2 * bytelen - 41)) (w : ℕ → ZMod 12289)
    (A : Arith P n) (L : NttLaw P n w) (message salt : Bytes) (hs : salt.length = 40) (hsb : IsBytes salt) (c : List ℕ) (hc : Returns X n message salt c) (hr : ∀ x ∈ c, x < 12289) :
    ∃ sig a, IsBytes sig ∧ PyRecoverReturns epervier P X n bound bytelen message sig (some a) := by
  have hz : ∀ m, codeLength (List.replicate m 0) = 9 * m := by
    intro m
    induction m with
    | zero => rfl
    | succ m ih => rw [List.replicate_succ, codeLength, ih]; simp; omega
  have hz0 : ∀ m, normSq (List.replicate m 0) = 0 := fun m => normSq_zeros _ (fun x hx => List.eq_of_mem_replicate hx)
  have hcl : codeLength (List.replicate n 0 ++ 1 :: List.replicate (n - 1) 0) = 18 * n := by
    have h2 := hz (n - 1)
    have app : ∀ m (l : List ℤ), codeLength (List.replicate m 0 ++ l) = 9 * m + codeLength l := by
      intro m l
      induction m with
      | zero => simp
      | succ m ih => rw [List.replicate_succ, List.cons_append, codeLength, ih]; simp; omega
    rw [app, codeLength, h2]
    simp; omega
  obtain ⟨c1, c2⟩ := Encoding.compress_fits_iff (List.replicate n 0 ++ 1 :: List.replicate (n - 1) 0) (2 * bytelen - 41)
  cases hcomp : Encoding.compress (List.replicate n 0 ++ 1 :: List.replicate (n - 1) 0) (2 * bytelen - 41) with
  | none => have := c1.1 hcomp; omega
  | some enc =>
    obtain ⟨_, d2, d3, m, d4⟩ := (c2 enc).1 hcomp
    obtain ⟨b, _, b2, b3, b4⟩ := joinBytes3_spec (List.replicate n 1) (fun x hx => by rw [List.eq_of_mem_replicate hx]; decide)
    rw [List.length_replicate] at b2
    have hl : (0 :: salt ++ enc ++ b).length - 3 * n = (0 :: salt ++ enc).length := by rw [List.length_append, b2]; omega
    have hhint : hints n (0 :: salt ++ enc ++ b) = List.replicate n 1 := by
      unfold hints; rw [hl, List.drop_left, b4]
    have hbody : body n (0 :: salt ++ enc ++ b) = enc := by
      unfold body; rw [hl, List.take_left, List.drop_left' (by simp [hs])]
    have hsalt : saltOf (0 :: salt ++ enc ++ b) = salt := by unfold saltOf; simp [hs]
    have l1 : (1 :: List.replicate (n - 1) (0 : ℤ)).length = n := by rw [List.length_cons, List.length_replicate]; omega
    have hone : zq (1 :: List.replicate (n - 1) 0) = one n := by unfold zq one; rw [List.map_cons, List.map_replicate, Int.cast_one, Int.cast_zero]
    have hcred : Reduced (List.map (fun x : ℕ => (x : ℤ)) c) := by
      intro x hx
      obtain ⟨y, hy, rfl⟩ := List.mem_map.1 hx
      have := hr y hy
      omega
    have lc : (List.map (fun x : ℕ => (x : ℤ)) c).length = n := by rw [List.length_map]; exact hash_length hc
    have hpk : keyAddress epervier P (List.map (fun x : ℕ => (x : ℤ)) c) = .ok _ := pyAddress_eq _ (L.ntt _ lc).2.1
    refine ⟨0 :: salt ++ enc ++ b, _, ?_, (C41_recover_iff epervier P X n bound bytelen hn w A L (epervier_law L) message _ _).2
      ⟨List.replicate n 0, 1 :: List.replicate (n - 1) 0, ⟨by rw [hbody, d3], List.length_replicate .., l1, by rw [hbody, d4]; exact List.prefix_append _ _⟩, ?_, ?_, c, by rw [hsalt]; exact hc,
        _, lc, hcred, ⟨List.length_replicate .., l1, ?_⟩, hpk⟩⟩
    · intro x hx
      simp only [List.cons_append, List.mem_cons, List.mem_append] at hx
      rcases hx with rfl | (hx | hx) | hx
      · norm_num
      · exact hsb x hx
      · exact d2 x hx
      · exact b3 x hx
    · intro i hi
      rw [hhint, hone, ← Polynomial.coe_aeval_eq_eval, aeval_toPoly, one, ev_const, map_one, List.getD_eq_getElem?_getD, List.getElem?_replicate, if_pos hi]
      simp
    · have := hz0 n
      have h2 := hz0 (n - 1)
      unfold normSq at this h2 ⊢
      rw [this, List.map_cons, List.sum_cons, h2]
      simp; omega
    · have hz' : zq (List.replicate n 0) = List.replicate n 0 := by unfold zq; rw [List.map_replicate, Int.cast_zero]
      apply list_eq_of_ev n hn
      · rw [List.length_zipWith, length_zq, length_negMul, List.length_replicate]; omega
      · rw [length_zq, lc]
      · rw [ev_zipWith_add _ n _ _ (by rw [length_zq, List.length_replicate]) (length_negMul ..), ev_negMul _ n (rt_pow n) _ _ (by rw [length_zq, l1]) (by rw [length_zq, lc]), hone, one, ev_const,
          map_one, one_mul, hz', ev_replicate_zero, zero_add]

/-! ### Existence and length of signatures; a concrete one -/

/-- Signing returns a signature as soon as the message has a hash and some sampled pair is good; every signature has `2*bytelen + 3n` bytes. -/
theorem C40_signs (M : Mode) {S : Type} (P : PolyLib) (X : Xof S) (n bound bytelen : ℕ) (hn : 0 < n) (hb : 41 ≤ 2 * bytelen) (w : ℕ → ZMod 12289) (L : NttLaw P n w) (I : InvLaw P n)
    (salt message : Bytes) (hs : salt.length = 40) (attempt : List ℤ → ℕ → List ℤ × List ℤ) (ha : ∀ c k, c.length = n → (attempt c k).2.length = n) :
    (∀ sig, PySignReturns M P X n bound bytelen salt message attempt sig → sig.length = 2 * bytelen + 3 * n) ∧
    (∀ c, Returns X n message salt c → (∃ j, GoodPair n bound bytelen (attempt (List.map (fun x : ℕ => (x : ℤ)) c) j)) →
      ∃ sig, PySignReturns M P X n bound bytelen salt message attempt sig) := by
  constructor
  · intro sig h
    obtain ⟨c, hc, j, _, hg, enc, b, _, e2, _, e4, rfl⟩ := (C40_sign_iff M P X n bound bytelen hn w L I salt message attempt ha sig).1 h
    have h1 := ha (List.map (fun x : ℕ => (x : ℤ)) c) j (by simpa using hash_length hc)
    obtain ⟨b', b1, b2, _⟩ := hintBytes_spec hn L I _ h1 (fun x hx => of_decide_eq_true (List.all_eq_true.1 ((all_nonzero hn L _ h1).2 hg.1) x hx))
    rw [e4, Except.ok.injEq] at b1
    subst b1
    simp only [List.length_append, List.length_cons, hs, e2, b2]
    omega
  · intro c hc hj
    classical
    have hg := Nat.find_spec hj
    have hmin : ∀ i < Nat.find hj, ¬ GoodPair n bound bytelen (attempt (List.map (fun x : ℕ => (x : ℤ)) c) i) := fun i hi => Nat.find_min hj hi
    generalize Nat.find hj = j at hg hmin
    have h1 := ha (List.map (fun x : ℕ => (x : ℤ)) c) j (by simpa using hash_length hc)
    obtain ⟨b, b1, _⟩ := hintBytes_spec hn L I _ h1 (fun x hx => of_decide_eq_true (List.all_eq_true.1 ((all_nonzero hn L _ h1).2 hg.1) x hx))
    obtain ⟨c1, c2⟩ := Encoding.compress_fits_iff ((attempt (List.map (fun x : ℕ => (x : ℤ)) c) j).1 ++ (attempt (List.map (fun x : ℕ => (x : ℤ)) c) j).2) (2 * bytelen - 41)
    cases hcomp : Encoding.compress ((attempt (List.map (fun x : ℕ => (x : ℤ)) c) j).1 ++ (attempt (List.map (fun x : ℕ => (x : ℤ)) c) j).2) (2 * bytelen - 41) with
    | none => have := c1.1 hcomp; have := hg.2.2; omega
    | some enc =>
      obtain ⟨d1, d2, d3, d4⟩ := (c2 enc).1 hcomp
      exact ⟨_, (C40_sign_iff M P X n bound bytelen hn w L I salt message attempt ha _).2 ⟨c, hc, j, hmin, hg, enc, b, d2, d3, d4, b1, rfl⟩⟩

/-- Signing and recovering with a real key in dimension 2 (the sampler's first pair is rejected, the second gives `s0 = 25 + 22x`, `s1 = 26 - 8x`). -/
theorem toyRecover (M : Mode) (ML : ModeLaw M toyLib 2) :
    ∃ sig pk, PySignReturns M toyLib shakeXof 2 101498 44 toySalt [1, 2, 3] (fun c k => samplePreimage 2 toyKey c (toyZ c k)) sig ∧ keyAddress M toyLib toyKey.h = .ok pk ∧
      PyRecoverReturns M toyLib shakeXof 2 101498 44 [1, 2, 3] sig (some pk) := by
  have L : NttLaw toyLib 2 (wk 1) := libNtt 1 (by decide) (by decide)
  have I : InvLaw toyLib 2 := libInv 1 (by decide) (by decide)
  have hz : ∀ c k, (toyZ c k).1.length = 2 ∧ (toyZ c k).2.length = 2 := by intro c k; unfold toyZ; split <;> decide
  have hr : Reduced toyKey.h := by unfold Reduced toyKey; decide
  obtain ⟨sig, h⟩ := (C40_signs M toyLib shakeXof 2 101498 44 (by decide) (by decide) (wk 1) L I toySalt [1, 2, 3] rfl (fun c k => samplePreimage 2 toyKey c (toyZ c k))
    (fun c k hc => (samplePreimage_isPreimage 2 (by decide) toyKey toyIsKey c hc (toyZ c k) (hz c k).1 (hz c k).2).2.1)).2 _ toyHash
      ⟨1, ⟨(all_nonzero (by decide) L _ (by decide)).1 (by decide +kernel), by decide, by decide⟩⟩
  have hpk := pyAddress_eq _ (ML.red toyKey.h rfl hr)
  exact ⟨sig, _, h, hpk, C40_sign_recover M toyLib shakeXof 2 101498 44 rfl (wk 1) toyArith L I ML toyKey toyIsKey hr toySalt [1, 2, 3] rfl toyZ hz sig _ hpk h⟩

example : ∃ sig pk, PyRecoverReturns epervier toyLib shakeXof 2 101498 44 [1, 2, 3] sig (some pk) := by
  obtain ⟨sig, pk, _, _, h⟩ := toyRecover epervier (epervier_law (libNtt 1 (by decide) (by decide)))
  exact ⟨sig, pk, h⟩

example : ∃ sig pk, PyRecoverReturns recoveryMode toyLib shakeXof 2 101498 44 [1, 2, 3] sig (some pk) := by
  obtain ⟨sig, pk, _, _, h⟩ := toyRecover recoveryMode (recovery_law (libNtt 1 (by decide) (by decide)))
  exact ⟨sig, pk, h⟩

end Verif.Epervier
