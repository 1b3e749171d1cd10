import Verif.CRef.SignDynExact
import Verif.CRef.Recover

/-! # C106: signatures of the C signer are valid -/

namespace Verif.CRef.SignDyn

open Verif.Ring Verif.CRef.Fpr Verif.CRef.Fft Verif.CRef.SignSampler Verif.Falcon

/-- **C106** (recording): recording the drawn integers changes neither the result nor the sampler's state. -/
theorem C106_logged {σ : Type} (samp : Samp σ) (f g F G : List ℤ) (hm : List ℕ) (logn : ℕ) (st : σ) (l : List ℤ) :
    (doSignDyn (logged samp) f g F G hm logn (st, l)).map (fun r => (r.1, r.2.1)) = doSignDyn samp f g F G hm logn st := by
  unfold doSignDyn
  dsimp only
  generalize (target (basis f g F G logn) hm logn) = t
  generalize (gram (basis f g F G logn) logn) = gr
  have i := tree_logged samp logn logn t.1 t.2 gr.1 gr.2.1 gr.2.2 st l
  rcases ha : ffSampling (logged samp) logn logn t.1 t.2 gr.1 gr.2.1 gr.2.2 (st, l) with _ | a
  · rw [ha] at i; rw [← i]; rfl
  · rw [ha] at i; rw [← i]; rfl

/-- **C106** (one attempt). Whatever the sampler returned, if the `2 n` drawn integers are at most 32768 in magnitude and the vector `(s1, s2)` they stand for fits 16 bits, then all floating-point errors
vanish: the attempt returns exactly `s2` when the exact norm is within the bound, and asks for another attempt otherwise. -/
theorem C106_attempt {σ : Type} (samp : Samp σ) (logn : ℕ) (h1 : 1 ≤ logn) (h2 : logn ≤ 10) (f g F G : List ℤ) (hf : Vec8 (2 ^ logn) f) (hg : Vec8 (2 ^ logn) g) (hF : Vec8 (2 ^ logn) F) (hG : Vec8 (2 ^ logn) G)
    (hm : List ℕ) (st st' : σ) (r : Option (List ℤ)) (l : List ℤ) (run : doSignDyn (logged samp) f g F G hm logn (st, []) = some (r, (st', l))) :
    l.length = 2 ^ (logn + 1) ∧ ((∀ x ∈ l, |x| ≤ 32768) → ∀ s1 s2, IsVector (2 ^ logn) f g F G hm (arrange logn l).1 (arrange logn l).2 s1 s2 → Vec16 (2 ^ logn) s1 → Vec16 (2 ^ logn) s2 →
      r = if normSq s1 + normSq s2 ≤ l2bound[logn]! then some s2 else none) := by
  obtain ⟨s, rfl⟩ : ∃ s, logn = s + 1 := ⟨logn - 1, by omega⟩
  unfold doSignDyn at run
  dsimp only at run
  split at run
  · cases run
  next z hz =>
    obtain ⟨l', e, n, key⟩ := tree_int samp (s + 1) 32768 (by norm_num) (by norm_num) (s + 1) h2 _ _ _ _ _ _ _ hz
    have run' := Option.some.inj run
    have r1 := congrArg Prod.fst run'
    have r2 : z.2.2.2 = l := congrArg (fun x => x.2.2) run'
    dsimp only at r1
    rw [List.nil_append] at e
    rw [r2] at e
    subst e
    refine ⟨n, fun hl s1 s2 hp v1 v2 => ?_⟩
    obtain ⟨i0, i1⟩ := key hl
    have px := point_exact s (by omega) f g F G hf hg hF hG z.1 z.2.1 _ _ 32768 (by norm_num) (by norm_num) i0 i1
    obtain ⟨p1, p2, p3⟩ := hp
    have b1 : ∀ j < 2 ^ (s + 1), IsInt16 (s1.getD j 0) := fun j hj => by
      rw [List.getD_eq_getElem _ _ (by rw [p1]; exact hj)]; exact v1.2 _ (List.getElem_mem _)
    have b2 : ∀ j < 2 ^ (s + 1), IsInt16 (s2.getD j 0) := fun j hj => by
      rw [List.getD_eq_getElem _ _ (by rw [p2]; exact hj)]; exact v2.2 _ (List.getElem_mem _)
    have gn : ∀ j, hm[j]! = hm.getD j 0 := fun j => by rw [List.getElem!_eq_getElem?_getD, List.getD_eq_getElem?_getD]; rfl
    have e1 : ∀ j < 2 ^ (s + 1), s1Of hm[j]! (point (basis f g F G (s + 1)) z.1 z.2.1 (s + 1)).1[j]! = s1[j]! := by
      intro j hj
      rw [get_getD s1, gn]
      refine s1_exact _ _ _ ?_ (b1 j hj)
      rw [(px j hj).1, (p3 j hj).1]; ring
    have e2 : (List.range (2 ^ (s + 1))).map (fun u => s2Of (point (basis f g F G (s + 1)) z.1 z.2.1 (s + 1)).2[u]!) = s2 := by
      refine List.ext_getElem (by rw [List.length_map, List.length_range, p2]) fun j hj1 hj2 => ?_
      have hj : j < 2 ^ (s + 1) := by rw [← p2]; exact hj2
      rw [List.getElem_map, List.getElem_range, ← List.getD_eq_getElem s2 0 hj2]
      refine s2_exact _ _ ?_ (b2 j hj)
      rw [(px j hj).2, (p3 j hj).2]
    rw [← r1, e2]
    have ck := check_exact (s + 1) hm _ s1 s2 v1 v2 e1
    by_cases c : normSq s1 + normSq s2 ≤ l2bound[s + 1]!
    · rw [if_pos c, if_pos (ck.2 c)]
    · rw [if_neg c, if_neg (fun h => c (ck.1 h))]

/-! ## Validity -/

theorem ev_ints (r : ZMod 12289) (c : List ℕ) : ev r (c.map Int.ofNat) = ev r (NTT.toZ 12289 c) := by
  have : NTT.toZ 12289 c = zq (c.map Int.ofNat) := by unfold NTT.toZ zq; rw [List.map_map]; rfl
  rw [this, ev_zq]

theorem bmod_sq (x : ℤ) : Int.bmod x 12289 * Int.bmod x 12289 ≤ x * x := by
  have h1 : -6144 ≤ Int.bmod x 12289 := by have := Int.le_bmod (x := x) (m := 12289) (by norm_num); omega
  have h2 : Int.bmod x 12289 ≤ 6144 := by have := Int.bmod_lt (x := x) (m := 12289) (by norm_num); omega
  obtain ⟨k, hk⟩ : ∃ k, x = Int.bmod x 12289 + 12289 * k := by
    have := Int.bmod_add_bdiv x 12289
    exact ⟨Int.bdiv x 12289, by push_cast at this; linarith⟩
  generalize Int.bmod x 12289 = y at *
  subst hk
  rcases lt_trichotomy k 0 with h | h | h
  · nlinarith
  · subst h; simp
  · nlinarith

theorem centred (s1 : List ℤ) : (∀ x ∈ s1.map (fun x => Int.bmod x 12289), -6144 ≤ x ∧ x ≤ 6144) ∧ zq (s1.map fun x => Int.bmod x 12289) = zq s1 ∧ normSq (s1.map fun x => Int.bmod x 12289) ≤ normSq s1 := by
  refine ⟨fun x hx => ?_, ?_, ?_⟩
  · obtain ⟨y, _, rfl⟩ := List.mem_map.1 hx
    have h1 := Int.le_bmod (x := y) (m := 12289) (by norm_num)
    have h2 := Int.bmod_lt (x := y) (m := 12289) (by norm_num)
    constructor <;> omega
  · unfold zq
    rw [List.map_map]
    refine List.map_congr_left fun x _ => ?_
    show ((Int.bmod x 12289 : ℤ) : ZMod 12289) = x
    rw [ZMod.intCast_eq_intCast_iff]
    exact Int.bmod_emod
  · unfold normSq
    rw [List.map_map]
    induction s1 with
    | nil => simp
    | cons a s1 ih =>
      rw [List.map_cons, List.sum_cons, List.map_cons, List.sum_cons]
      have := bmod_sq a
      simp only [Function.comp_apply] at *
      linarith

/-- A lattice vector of the key gives a preimage of the point. -/
theorem point_accepts (logn : ℕ) (h2 : logn ≤ 10) (f g F G : List ℤ) (h c : List ℕ) (hf : f.length = 2 ^ logn) (hg : g.length = 2 ^ logn) (hF : F.length = 2 ^ logn) (hG : G.length = 2 ^ logn) (hc : c.length = 2 ^ logn)
    (hk : KeyOf (2 ^ logn) f g F G h) (z0 z1 s1 s2 : List ℤ) (l0 : z0.length = 2 ^ logn) (l1 : z1.length = 2 ^ logn) (hp : IsVector (2 ^ logn) f g F G c z0 z1 s1 s2) (b : ℕ) (hb : normSq s1 + normSq s2 ≤ b) :
    Accepts (2 ^ logn) b h c s2 := by
  obtain ⟨p1, p2, p3⟩ := hp
  obtain ⟨hh, hu, hpub, hG2⟩ := hk
  obtain ⟨c1, c2, c3⟩ := centred s1
  refine ⟨s1.map fun x => Int.bmod x 12289, by rw [List.length_map, p1], c1, ?_, by linarith⟩
  rw [c2]
  have es1 : s1 = List.zipWith (· - ·) (List.zipWith (· - ·) (c.map Int.ofNat) (negMul (2 ^ logn) z0 g)) (negMul (2 ^ logn) z1 G) := by
    refine List.ext_getElem (by simp [p1, hc]) fun j h1 h2 => ?_
    rw [← List.getD_eq_getElem s1 0 h1, (p3 j (by omega)).1, List.getElem_zipWith, List.getElem_zipWith, ← List.getD_eq_getElem _ 0, ← List.getD_eq_getElem _ 0, ← List.getD_eq_getElem _ 0]
    congr 2
    rw [List.getD_eq_getElem _ _ (by omega), List.getD_eq_getElem _ _ (by rw [List.length_map]; omega), List.getElem_map]; rfl
  have es2 : s2 = List.zipWith (· + ·) (negMul (2 ^ logn) z0 f) (negMul (2 ^ logn) z1 F) := by
    refine List.ext_getElem (by simp [p2]) fun j h1 h2 => ?_
    rw [← List.getD_eq_getElem s2 0 h1, (p3 j (by omega)).2, List.getElem_zipWith, ← List.getD_eq_getElem _ 0, ← List.getD_eq_getElem _ 0]
  refine ev_inj h2 _ _ (by simp [p1]) (by simp [hc]) fun i hi => ?_
  have hr := rootC_pow logn h2 i hi
  have q1 := (mul_iff h2 _ _ _ (by simp [hh]) (by simp [hf]) (by simp [hg])).1 hpub i hi
  have q2 := (mul_iff h2 _ _ _ (by simp [hG]) (by simp [hf]) (by simp)).1 hG2 i hi
  have q3 := (unit_ev h2 (zq f) (by simp [hf])).1 hu i hi
  rw [ev_negMul _ _ hr _ _ (by simp [hg]) (by simp [hF])] at q2
  rw [ev_zipWith_add _ (2 ^ logn) _ _ (by simp [p1]) (by simp), ev_negMul _ _ hr _ _ (by simp [p2]) (by simp [hh])]
  have v1 : ev (rootC logn i) (zq s1) = ev (rootC logn i) (NTT.toZ 12289 c) - ev (rootC logn i) (zq z0) * ev (rootC logn i) (zq g) - ev (rootC logn i) (zq z1) * ev (rootC logn i) (zq G) := by
    rw [ev_zq, es1, ev_zipWith_sub _ (2 ^ logn) _ _ (by simp [hc]) (by simp), ev_zipWith_sub _ (2 ^ logn) _ _ (by simp [hc]) (by simp), ev_negMul _ _ hr _ _ l0 hg, ev_negMul _ _ hr _ _ l1 hG, ev_ints,
      ev_zq, ev_zq, ev_zq, ev_zq]
  have v2 : ev (rootC logn i) (zq s2) = ev (rootC logn i) (zq z0) * ev (rootC logn i) (zq f) + ev (rootC logn i) (zq z1) * ev (rootC logn i) (zq F) := by
    rw [ev_zq, es2, ev_zipWith_add _ (2 ^ logn) _ _ (by simp) (by simp), ev_negMul _ _ hr _ _ l0 hf, ev_negMul _ _ hr _ _ l1 hF, ev_zq, ev_zq, ev_zq, ev_zq]
  rw [v1, v2]
  generalize ev (rootC logn i) (zq f) = ef at *
  generalize ev (rootC logn i) (zq g) = eg at *
  generalize ev (rootC logn i) (zq F) = eF at *
  generalize ev (rootC logn i) (zq G) = eG at *
  generalize ev (rootC logn i) (zq z0) = e0 at *
  generalize ev (rootC logn i) (zq z1) = e1 at *
  generalize ev (rootC logn i) (NTT.toZ 12289 h) = eh at *
  generalize ev (rootC logn i) (NTT.toZ 12289 c) = ec at *
  have q4 : eF * eh = eG := mul_right_cancel₀ q3 (by linear_combination eF * q1 - q2)
  linear_combination e0 * q1 + e1 * q4

theorem point_exists (n : ℕ) (f g F G : List ℤ) (c : List ℕ) (z0 z1 : List ℤ) : ∃ s1 s2, IsVector n f g F G c z0 z1 s1 s2 := by
  refine ⟨(List.range n).map fun j => (c.getD j 0 : ℤ) - (negMul n z0 g).getD j 0 - (negMul n z1 G).getD j 0, (List.range n).map fun j => (negMul n z0 f).getD j 0 + (negMul n z1 F).getD j 0, by simp, by simp, fun j hj => ?_⟩
  constructor
  · rw [List.getD_eq_getElem?_getD, List.getElem?_map, List.getElem?_range hj]; rfl
  · rw [List.getD_eq_getElem?_getD, List.getElem?_map, List.getElem?_range hj]; rfl

/-- **C106** (validity). A signature returned by `do_sign_dyn` from an attempt that stays in range is valid for the public key: the verifier accepts it. -/
theorem C106_valid {σ : Type} (samp : Samp σ) (logn : ℕ) (h1 : 1 ≤ logn) (h2 : logn ≤ 10) (f g F G : List ℤ) (hf : Vec8 (2 ^ logn) f) (hg : Vec8 (2 ^ logn) g) (hF : Vec8 (2 ^ logn) F) (hG : Vec8 (2 ^ logn) G)
    (h c : List ℕ) (hk : KeyOf (2 ^ logn) f g F G h) (hc : c.length = 2 ^ logn) (st st' : σ) (s : List ℤ) (fit : Fits samp f g F G c logn st) (run : doSignDyn samp f g F G c logn st = some (some s, st')) :
    s.length = 2 ^ logn ∧ Accepts (2 ^ logn) l2bound[logn]! h c s := by
  rw [← C106_logged samp f g F G c logn st []] at run
  obtain ⟨⟨r, st'', l⟩, hr, he⟩ := Option.map_eq_some_iff.1 run
  cases he
  obtain ⟨b, v⟩ := fit _ _ _ hr
  obtain ⟨s1, s2, hp⟩ := point_exists (2 ^ logn) f g F G c (arrange logn l).1 (arrange logn l).2
  obtain ⟨v1, v2⟩ := v s1 s2 hp
  have key := (C106_attempt samp logn h1 h2 f g F G hf hg hF hG c st _ _ l hr).2 b s1 s2 hp v1 v2
  by_cases cnd : normSq s1 + normSq s2 ≤ l2bound[logn]!
  · rw [if_pos cnd] at key
    cases key
    exact ⟨v2.1, point_accepts logn h2 f g F G h c hf.1 hg.1 hF.1 hG.1 hc hk _ _ s1 s (arrange_length _ _).1 (arrange_length _ _).2 hp _ cnd⟩
  · rw [if_neg cnd] at key; cases key

theorem loop_iff (sfuel : ℕ) (buf : ℕ → Bytes) (f g F G : List ℤ) (hm : List ℕ) (logn : ℕ) (s : List ℤ) (c' : Shake.Ctx) : ∀ (fuel i : ℕ) (c : Shake.Ctx),
    signDyn sfuel buf f g F G hm logn fuel i c = some (s, c') ↔ ∃ k < fuel, (∀ j < k, ∃ p, doSignDyn (zSampler logn sfuel) f g F G hm logn (attempt buf i c j).1 = some (none, p)) ∧
      (∃ p, doSignDyn (zSampler logn sfuel) f g F G hm logn (attempt buf i c k).1 = some (some s, p)) ∧ c' = (attempt buf i c k).2
  | 0, i, c => by unfold signDyn; simp
  | fuel + 1, i, c => by
    have e : signDyn sfuel buf f g F G hm logn (fuel + 1) i c = match doSignDyn (zSampler logn sfuel) f g F G hm logn (Prng.init (buf i) c).1 with
        | none => none
        | some r => match r.1 with
          | some s => some (s, (Prng.init (buf i) c).2)
          | none => signDyn sfuel buf f g F G hm logn fuel (i + 1) (Prng.init (buf i) c).2 := rfl
    have a0 : attempt buf i c 0 = Prng.init (buf i) c := rfl
    have a1 : ∀ k, attempt buf i c (k + 1) = attempt buf (i + 1) (Prng.init (buf i) c).2 k := fun _ => rfl
    rw [e]
    obtain ⟨P, hP⟩ : ∃ P, Prng.init (buf i) c = P := ⟨_, rfl⟩
    rw [hP] at a0 a1 ⊢
    rcases hd : doSignDyn (zSampler logn sfuel) f g F G hm logn P.1 with _ | ⟨r, p⟩
    · refine ⟨fun h => (by cases h), ?_⟩
      rintro ⟨k, _, hj, ⟨p, hp⟩, _⟩
      rcases k with _ | k
      · rw [a0, hd] at hp; cases hp
      · obtain ⟨p, hp⟩ := hj 0 (by omega)
        rw [a0, hd] at hp; cases hp
    · rcases r with _ | s'
      · dsimp only
        rw [loop_iff sfuel buf f g F G hm logn s c' fuel (i + 1) P.2]
        constructor
        · rintro ⟨k, hk, hj, hp, hc⟩
          refine ⟨k + 1, by omega, fun j hjk => ?_, by rw [a1]; exact hp, by rw [a1]; exact hc⟩
          rcases j with _ | j
          · exact ⟨p, by rw [a0]; exact hd⟩
          · rw [a1]; exact hj j (by omega)
        · rintro ⟨k, hk, hj, hp, hc⟩
          rcases k with _ | k
          · obtain ⟨q, hq⟩ := hp
            rw [a0, hd] at hq; cases hq
          · exact ⟨k, by omega, fun j hjk => by have := hj (j + 1) (by omega); rwa [a1] at this, by rwa [a1] at hp, by rwa [a1] at hc⟩
      · dsimp only
        constructor
        · intro h
          cases h
          exact ⟨0, by omega, fun j hj => by omega, ⟨p, by rw [a0]; exact hd⟩, by rw [a0]⟩
        · rintro ⟨k, hk, hj, ⟨q, hq⟩, hc⟩
          rcases k with _ | k
          · rw [a0, hd] at hq; cases hq
            rw [a0] at hc; rw [hc]
          · obtain ⟨p', hp'⟩ := hj 0 (by omega)
            rw [a0, hd] at hp'; cases hp'

/-- **C106** (`sign_dyn`): the signature is the one of the first attempt that passes the norm check; the generator of every attempt is seeded anew from the SHAKE context. -/
theorem C106_loop (sfuel : ℕ) (buf : ℕ → Bytes) (f g F G : List ℤ) (hm : List ℕ) (logn fuel : ℕ) (c c' : Shake.Ctx) (s : List ℤ) :
    signDyn sfuel buf f g F G hm logn fuel 0 c = some (s, c') ↔ ∃ k < fuel, (∀ j < k, ∃ p, doSignDyn (zSampler logn sfuel) f g F G hm logn (attempt buf 0 c j).1 = some (none, p)) ∧
      (∃ p, doSignDyn (zSampler logn sfuel) f g F G hm logn (attempt buf 0 c k).1 = some (some s, p)) ∧ c' = (attempt buf 0 c k).2 :=
  loop_iff sfuel buf f g F G hm logn s c' fuel 0 c

/-- **C106** (`sign_dyn`, validity): with the sampler of C98 and the generator of C95, if the attempts stay in range, the signature is valid for the public key. -/
theorem C106_sign_dyn (sfuel : ℕ) (buf : ℕ → Bytes) (logn fuel : ℕ) (h1 : 1 ≤ logn) (h2 : logn ≤ 10) (f g F G : List ℤ) (hf : Vec8 (2 ^ logn) f) (hg : Vec8 (2 ^ logn) g) (hF : Vec8 (2 ^ logn) F)
    (hG : Vec8 (2 ^ logn) G) (h c : List ℕ) (hk : KeyOf (2 ^ logn) f g F G h) (hc : c.length = 2 ^ logn) (rng rng' : Shake.Ctx) (s : List ℤ)
    (fit : ∀ i < fuel, Fits (zSampler logn sfuel) f g F G c logn (attempt buf 0 rng i).1) (run : signDyn sfuel buf f g F G c logn fuel 0 rng = some (s, rng')) :
    s.length = 2 ^ logn ∧ Accepts (2 ^ logn) l2bound[logn]! h c s := by
  obtain ⟨k, hkf, _, ⟨p, hp⟩, _⟩ := (C106_loop sfuel buf f g F G c logn fuel rng rng' s).1 run
  exact C106_valid _ logn h1 h2 f g F G hf hg hF hG h c hk hc _ p s (fit k hkf) hp

/-! ## A concrete case

`n = 2`, `f = 111`, `g = 8`, `F = 4`, `G = 111` (`f G - g F = 12289`), a sampler that always answers 1. -/

example : IsVector 2 [111, 0] [8, 0] [4, 0] [111, 0] [119, 0] [1, 1] [1, 1] [0, -119] [115, 115] := by unfold IsVector; decide

example : doSignDyn (fun (u : Unit) _ _ => some (1, u)) [111, 0] [8, 0] [4, 0] [111, 0] [119, 0] 1 () = some (some [115, 115], ()) := by
  have h : ∃ r, doSignDyn (logged fun (u : Unit) _ _ => some (1, u)) [111, 0] [8, 0] [4, 0] [111, 0] [119, 0] 1 ((), []) = some (r, ((), [1, 1, 1, 1])) := ⟨_, rfl⟩
  obtain ⟨r, hr⟩ := h
  have v : ∀ a b : ℤ, -128 ≤ a ∧ a ≤ 127 → -128 ≤ b ∧ b ≤ 127 → Vec8 (2 ^ 1) [a, b] := by
    intro a b ha hb
    refine ⟨rfl, fun x hx => ?_⟩
    simp only [List.mem_cons, List.not_mem_nil, or_false] at hx
    rcases hx with rfl | rfl
    · exact ha
    · exact hb
  have key := (C106_attempt _ 1 (by norm_num) (by norm_num) [111, 0] [8, 0] [4, 0] [111, 0] (v _ _ (by norm_num) (by norm_num)) (v _ _ (by norm_num) (by norm_num)) (v _ _ (by norm_num) (by norm_num))
    (v _ _ (by norm_num) (by norm_num)) [119, 0] () () r _ hr).2 (by decide) [0, -119] [115, 115] (by unfold IsVector; decide) ⟨rfl, by unfold IsInt16; decide⟩ ⟨rfl, by unfold IsInt16; decide⟩
  rw [if_pos (by decide)] at key
  subst key
  rw [← C106_logged _ _ _ _ _ _ _ _ [], hr]
  rfl

end Verif.CRef.SignDyn
