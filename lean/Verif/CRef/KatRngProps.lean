import Verif.CRef.KatRng
import Verif.CRef.AesProps
import Verif.Rng.Drbg

/-! # The generators of `katrng.c` follow SP 800-90A and agree with the Python ones -/

namespace Verif.CRef.Kat

open Aes (ecb ecb_block)
open Verif.Rng (Drbg Work Holds value block16 stream specUpdate specGenerate specRun)

/-! ## The counter -/

theorem set_mid (p s : Bytes) (a b : Nat) : (p ++ a :: s).set p.length b = p ++ b :: s := by
  rw [List.set_append]
  simp

theorem get_mid (p s : Bytes) (a : Nat) : (p ++ a :: s)[p.length]! = a := by
  rw [getElem!_def, List.getElem?_append_right (le_refl _)]
  simp

theorem value_snoc (u : Bytes) (x : Nat) : value (u ++ [x]) = value u * 256 + x := by
  unfold value
  rw [List.foldl_append]
  rfl

theorem incLoop_spec (n : Nat) (p u s : Bytes) (hu : u.length = n) (hb : IsBytes u) :
    ∃ v, incLoop p.length n (p ++ u ++ s) = p ++ v ++ s ∧ v.length = n ∧ IsBytes v ∧ value v = (value u + 1) % 256 ^ n := by
  induction n generalizing u s with
  | zero =>
    rw [List.length_eq_zero_iff] at hu
    subst hu
    exact ⟨[], rfl, rfl, hb, rfl⟩
  | succ n ih =>
    obtain ⟨u, x, rfl⟩ : ∃ w x, u = w ++ [x] := ⟨u.dropLast, u.getLast (by intro h; rw [h] at hu; cases hu), (List.dropLast_append_getLast _).symm⟩
    have hl : u.length = n := by simpa using hu
    have hub : IsBytes u := fun y hy => hb y (List.mem_append_left _ hy)
    have hx : x < 256 := hb x (by simp)
    have e1 : p ++ (u ++ [x]) ++ s = (p ++ u) ++ x :: s := by simp
    have e2 : p.length + n = (p ++ u).length := by rw [List.length_append, hl]
    have hv := Rng.value_lt u hub
    rw [hl] at hv
    unfold incLoop
    rw [e1, e2, get_mid, set_mid, set_mid]
    by_cases c : x = 0xff
    · rw [if_pos c]
      obtain ⟨v, h1, h2, h3, h4⟩ := ih u (0x00 :: s) hl hub
      refine ⟨v ++ [0], ?_, by simp [h2], ?_, ?_⟩
      · rw [h1]; simp
      · intro y hy
        rcases List.mem_append.1 hy with hy | hy
        · exact h3 y hy
        · rw [List.mem_singleton.1 hy]; norm_num
      · rw [value_snoc, value_snoc, h4, c, pow_succ, show value u * 256 + 0xff + 1 = (value u + 1) * 256 by ring, Nat.mul_mod_mul_right, Nat.add_zero]
    · rw [if_neg c]
      refine ⟨u ++ [x + 1], by simp, by simp [hl], ?_, ?_⟩
      · intro y hy
        rcases List.mem_append.1 hy with hy | hy
        · exact hub y hy
        · rw [List.mem_singleton.1 hy]; omega
      · rw [value_snoc, value_snoc, Nat.mod_eq_of_lt]
        · ring
        · rw [pow_succ]
          omega

theorem inc_eq (V : Bytes) (hl : V.length = 16) (hb : IsBytes V) : incLoop 0 16 V = Rng.incr V := by
  obtain ⟨v, h1, h2, h3, h4⟩ := incLoop_spec 16 [] V [] hl hb
  rw [show ([] : Bytes) ++ V ++ [] = V by simp, show ([] : Bytes) ++ v ++ [] = v by simp] at h1
  rw [show ([] : Bytes).length = 0 from rfl] at h1
  rw [h1, ← Rng.block16_value v h3 h2, h4]
  rfl

/-! ## The same generator as in Python -/

theorem ecb_is_block : Rng.Block ecb := ecb_block

theorem incr_ok (V : Bytes) : (Rng.incr V).length = 16 ∧ IsBytes (Rng.incr V) := ⟨Rng.length_block16 _, Rng.isBytes_block16 _⟩

theorem update_eq (d : Drbg) (hl : d.V.length = 16) (hb : IsBytes d.V) (data : Option Bytes) (hd : ∀ a, data = some a → a.length = 48) :
    update data d.key d.V = ((Drbg.update ecb d (data.getD (List.replicate 48 0))).key, (Drbg.update ecb d (data.getD (List.replicate 48 0))).V) := by
  unfold update Drbg.update
  have r3 : List.range 3 = [0, 1, 2] := rfl
  rw [r3]
  simp only [List.foldl_cons, List.foldl_nil]
  obtain ⟨a1, a2⟩ := incr_ok d.V
  obtain ⟨b1, b2⟩ := incr_ok (Rng.incr d.V)
  rw [inc_eq d.V hl hb, inc_eq _ a1 a2, inc_eq _ b1 b2]
  obtain ⟨x, hx⟩ : ∃ x, ecb d.key (Rng.incr d.V) = x := ⟨_, rfl⟩
  obtain ⟨y, hy⟩ : ∃ x, ecb d.key (Rng.incr (Rng.incr d.V)) = x := ⟨_, rfl⟩
  obtain ⟨z, hz⟩ : ∃ x, ecb d.key (Rng.incr (Rng.incr (Rng.incr d.V))) = x := ⟨_, rfl⟩
  have lx : x.length = 16 := hx ▸ (ecb_block _ _).1
  have ly : y.length = 16 := hy ▸ (ecb_block _ _).1
  have lz : z.length = 16 := hz ▸ (ecb_block _ _).1
  rw [hx, hy, hz]
  obtain ⟨t, ht⟩ : ∃ t, [] ++ x ++ y ++ z = t := ⟨_, rfl⟩
  have lt : t.length = 48 := by rw [← ht]; simp [lx, ly, lz]
  rw [ht, List.take_of_length_le (by omega : t.length ≤ 48)]
  cases data with
  | none =>
    have hx0 : Rng.xorBytes t (List.replicate 48 0) = t := by
      unfold Rng.xorBytes
      apply List.ext_getElem
      · simp [lt]
      · intro i i1 i2
        rw [List.getElem_zipWith, List.getElem_replicate, Nat.xor_zero]
    simp only [Option.getD_none]
    rw [hx0, List.take_of_length_le (l := t.drop 32) (by rw [List.length_drop]; omega)]
  | some a =>
    have la := hd a rfl
    have hx0 : (List.range 48).map (fun i => t[i]! ^^^ a[i]!) = Rng.xorBytes t a := by
      unfold Rng.xorBytes
      apply List.ext_getElem
      · simp [lt, la]
      · intro i i1 i2
        simp only [List.length_map, List.length_range] at i1
        rw [List.getElem_map, List.getElem_range, List.getElem_zipWith, getElem!_pos t i (by omega), getElem!_pos a i (by omega)]
    simp only [Option.getD_some]
    have lxy : (Rng.xorBytes t a).length = 48 := by unfold Rng.xorBytes; simp [lt, la]
    rw [hx0, List.take_of_length_le (l := (Rng.xorBytes t a).drop 32) (by rw [List.length_drop]; omega)]

theorem rbLoop_eq (key : Bytes) (num fuel : Nat) (V tmp : Bytes) (hl : V.length = 16) (hb : IsBytes V) (h16 : tmp.length < num → tmp.length % 16 = 0) (hf : num ≤ tmp.length + fuel) :
    rbLoop key fuel V (tmp.take num) (num - tmp.length) = (((Rng.genLoop ecb key num fuel V tmp).1.take num), (Rng.genLoop ecb key num fuel V tmp).2) := by
  induction fuel generalizing V tmp with
  | zero => rfl
  | succ fuel ih =>
    unfold rbLoop Rng.genLoop
    by_cases c : tmp.length < num
    · rw [if_pos (by omega), if_pos c, inc_eq V hl hb]
      obtain ⟨a1, a2⟩ := incr_ok V
      simp only
      have le := (ecb_block key (Rng.incr V)).1
      obtain ⟨e, he⟩ : ∃ e, ecb key (Rng.incr V) = e := ⟨_, rfl⟩
      rw [he] at le ⊢
      have := h16 c
      have ih2 := ih (Rng.incr V) (tmp ++ e) a1 a2 (by rw [List.length_append, le]; intro; omega) (by rw [List.length_append, le]; omega)
      have e0 : num - (tmp ++ e).length = num - tmp.length - 16 := by rw [List.length_append, le]; omega
      by_cases c2 : num - tmp.length > 15
      · rw [if_pos c2, ← ih2, e0, List.take_append, List.take_of_length_le (by omega : e.length ≤ 16), List.take_of_length_le (l := e) (by omega)]
      · rw [if_neg c2, ← ih2, e0, show num - tmp.length - 16 = 0 by omega, List.take_append]
    · rw [if_neg (by omega), if_neg c]

/-- The C and the Python object hold the same working state. -/
def Same (c : Ctx) (d : Drbg) : Prop := c.key = d.key ∧ c.V = d.V ∧ c.reseedCounter = d.reseedCtr ∧ d.V.length = 16 ∧ IsBytes d.V

theorem holds_V {d : Drbg} {w : Work} (h : Holds d w) : d.V.length = 16 ∧ IsBytes d.V := by
  rw [h.2.1]
  exact ⟨Rng.length_block16 _, Rng.isBytes_block16 _⟩

theorem randombytes_eq (c : Ctx) (d : Drbg) (w : Work) (h : Same c d) (hw : Holds d w) (num : Nat) (hc : d.reseedCtr < 2 ^ 48) :
    ∃ d' w', d.randomBytes ecb num none = .ok ((randombytes c num).1, d') ∧ Same (randombytes c num).2 d' ∧ Holds d' w' := by
  rcases Rng.C49_generate ecb ecb_is_block d w hw num none (fun a ha => (by cases ha)) with ⟨_, _, out, d', h1, _, _, _, h5⟩ | ⟨h1, _⟩ | ⟨_, ⟨a, ha, _⟩, _⟩
  · refine ⟨d', _, ?_, ?_, h5⟩
    all_goals
      have h2 := h1
      unfold Drbg.randomBytes at h2
      rw [if_neg (by omega)] at h2
      have hr := rbLoop_eq d.key num num d.V [] h.2.2.2.1 h.2.2.2.2 (fun _ => rfl) (by simp)
      rw [List.take_nil, List.length_nil, Nat.sub_zero] at hr
      unfold randombytes
      rw [h.1, h.2.1, h.2.2.1, hr]
      simp only at h2 ⊢
      obtain ⟨g, hg⟩ : ∃ g, Rng.genLoop ecb d.key num num d.V [] = g := ⟨_, rfl⟩
      have hgv : g.2.length = 16 ∧ IsBytes g.2 := by
        have gs := Rng.genLoop_spec ecb ecb_is_block d.key num w.V num 0 (by omega) (by omega)
        rw [Nat.add_zero, Nat.mod_eq_of_lt hw.2.2.1, ← hw.2.1] at gs
        rw [show stream ecb d.key w.V 0 = [] from rfl, hg] at gs
        rw [gs]
        exact ⟨Rng.length_block16 _, Rng.isBytes_block16 _⟩
      rw [hg] at h2 ⊢
      obtain ⟨tmp, V⟩ := g
      simp only at h2 ⊢ hgv
      have hu := update_eq { d with V := V } hgv.1 hgv.2 none (fun a ha => by cases ha)
      simp only [Option.getD_none] at hu
    · rw [h1, ← h2]
      injection h2 with h3
      rw [h3]
      congr 2
      exact (congrArg Prod.fst h3).symm
    · injection h2 with h3
      have h4 := congrArg Prod.snd h3
      simp only at h4
      rw [hu]
      rw [← h4]
      refine ⟨rfl, rfl, rfl, ?_⟩
      have := holds_V h5
      rw [← h4] at this
      exact this
  · rw [hw.2.2.2] at hc; omega
  · cases ha

theorem run_eq (ks : List Nat) (c : Ctx) (d : Drbg) (w : Work) (h : Same c d) (hw : Holds d w) (hc : d.reseedCtr + ks.length ≤ 2 ^ 48) :
    ∃ d', Drbg.run ecb d ks = .ok ((run c ks).1, d') ∧ Same (run c ks).2 d' := by
  induction ks generalizing c d w with
  | nil => exact ⟨d, rfl, h⟩
  | cons k ks ih =>
    rw [List.length_cons] at hc
    obtain ⟨d1, w1, a1, a2, a3⟩ := randombytes_eq c d w h hw k (by omega)
    have hctr : d1.reseedCtr = d.reseedCtr + 1 := by
      rw [← a2.2.2.1, ← h.2.2.1]
      rfl
    obtain ⟨d2, b1, b2⟩ := ih _ d1 w1 a2 a3 (by omega)
    refine ⟨d2, ?_, b2⟩
    unfold Drbg.run
    rw [a1]
    simp only
    rw [b1]
    rfl

theorem init_eq (seed pers : Bytes) (hs : seed.length = 48) (hp : pers.length = 48) (hsb : IsBytes seed) (hpb : IsBytes pers) :
    ∃ d w, Drbg.init ecb seed pers = .ok d ∧ Same (randombytesInit seed (some pers)) d ∧ Holds d w := by
  rcases Rng.C49_init ecb ecb_is_block seed pers hsb hpb with ⟨_, _, d, h1, _, h3⟩ | ⟨h1, _⟩
  · refine ⟨d, _, h1, ?_, h3⟩
    have hv := holds_V h3
    unfold Drbg.init at h1
    rw [if_neg (by simpa using hs), if_neg (by omega)] at h1
    injection h1 with h2
    unfold randombytesInit
    have hx : (List.range 48).map (fun i => (seed.take 48)[i]! ^^^ pers[i]!) = Rng.xorBytes seed (Rng.pad48 pers) := by
      unfold Rng.xorBytes Rng.pad48
      rw [hp, Nat.sub_self, List.replicate_zero, List.append_nil, List.take_of_length_le (by omega)]
      apply List.ext_getElem
      · simp [hs, hp]
      · intro i i1 i2
        simp only [List.length_map, List.length_range] at i1
        rw [List.getElem_map, List.getElem_range, List.getElem_zipWith, getElem!_pos seed i (by omega), getElem!_pos pers i (by omega)]
    simp only
    rw [hx]
    have hu := update_eq ⟨List.replicate 32 0, List.replicate 16 0, 0⟩ (by decide) (by decide) (some (Rng.xorBytes seed (Rng.pad48 pers)))
      (fun a ha => by
        injection ha with ha
        rw [← ha]
        unfold Rng.xorBytes Rng.pad48
        simp [hs, hp])
    simp only [Option.getD_some] at hu
    rw [hu]
    rw [← h2]
    refine ⟨rfl, rfl, rfl, ?_⟩
    rw [← h2] at hv
    exact hv
  · exact absurd ⟨hs, by omega⟩ h1

theorem init_none (seed : Bytes) (hs : seed.length = 48) : randombytesInit seed none = randombytesInit seed (some (List.replicate 48 0)) := by
  unfold randombytesInit
  have hx : (List.range 48).map (fun i => (seed.take 48)[i]! ^^^ (List.replicate 48 0)[i]!) = seed.take 48 := by
    rw [List.take_of_length_le (by omega)]
    apply List.ext_getElem
    · simp [hs]
    · intro i i1 i2
      simp only [List.length_map, List.length_range] at i1
      rw [List.getElem_map, List.getElem_range, getElem!_pos seed i (by omega), getElem!_pos _ i (by rw [List.length_replicate]; exact i1), List.getElem_replicate, Nat.xor_zero]
  simp only
  rw [hx]

/-- **C96**: from the same 48-byte seed, the C generator and the Python `AES256_CTR_DRBG` (with this AES) give the same answers to every sequence of fewer than `2^48` requests. -/
theorem C96_python (seed : Bytes) (hs : seed.length = 48) (hb : IsBytes seed) (ks : List Nat) (hk : ks.length < 2 ^ 48) :
    ∃ d d', Drbg.init ecb seed [] = .ok d ∧ Drbg.run ecb d ks = .ok ((run (randombytesInit seed none) ks).1, d') := by
  obtain ⟨d, w, h1, h2, h3⟩ := init_eq seed (List.replicate 48 0) hs (by simp) hb (by decide)
  have hinit : Drbg.init ecb seed [] = Drbg.init ecb seed (List.replicate 48 0) := by
    unfold Drbg.init
    rfl
  have hctr : d.reseedCtr = 1 := by
    rw [← h2.2.2.1]
    rfl
  obtain ⟨d', h4, _⟩ := run_eq ks _ d w h2 h3 (by omega)
  exact ⟨d, d', hinit.trans h1, by rw [init_none seed hs]; exact h4⟩

/-! ## Against SP 800-90A with the AES of FIPS 197 -/

/-- The C object holds a working state of the specification. -/
def HoldsC (c : Ctx) (w : Work) : Prop := c.key = w.K ∧ IsBytes w.K ∧ c.V = block16 w.V ∧ w.V < 2 ^ 128 ∧ c.reseedCounter = w.ctr

theorem stream_aes (K : Bytes) (hK : IsBytes K) (V m : Nat) : stream ecb K V m = stream Aes.Spec.cipher K V m := by
  unfold stream
  congr 1
  funext i
  exact Aes.C96_aes K _ hK (Rng.isBytes_block16 _) (Rng.length_block16 _)

theorem stream_isBytes (K : Bytes) (V m : Nat) : IsBytes (stream ecb K V m) := Rng.stream_bytes ecb ecb_is_block K V m

theorem specUpdate_aes (w : Work) (hK : IsBytes w.K) (data : Bytes) : specUpdate ecb w data = specUpdate Aes.Spec.cipher w data := by
  unfold specUpdate
  rw [stream_aes w.K hK]

theorem specUpdate_bytes (w : Work) (data : Bytes) (hd : IsBytes data) : IsBytes (specUpdate ecb w data).K := by
  unfold specUpdate
  intro x hx
  exact Rng.isBytes_xor _ _ (stream_isBytes w.K w.V 3) hd x (List.mem_of_mem_take hx)

theorem specGenerate_aes (w : Work) (hK : IsBytes w.K) (k : Nat) : specGenerate ecb w k none = specGenerate Aes.Spec.cipher w k none := by
  unfold specGenerate
  simp only
  rw [stream_aes w.K hK, specUpdate_aes ⟨w.K, (w.V + (k + 15) / 16) % 2 ^ 128, w.ctr⟩ hK]

/-- **C96**: one request: the bytes and the next state are those of CTR_DRBG_Generate with AES-256. -/
theorem C96_randombytes (c : Ctx) (w : Work) (h : HoldsC c w) (num : Nat) :
    (randombytes c num).1 = (specGenerate Aes.Spec.cipher w num none).1 ∧ (randombytes c num).1.length = num ∧ HoldsC (randombytes c num).2 (specGenerate Aes.Spec.cipher w num none).2 := by
  obtain ⟨h1, hK, h2, h3, h4⟩ := h
  have hw : Holds ⟨c.key, c.V, 0⟩ { w with ctr := 0 } := ⟨h1, h2, h3, rfl⟩
  have hs : Same { c with reseedCounter := 0 } ⟨c.key, c.V, 0⟩ := ⟨rfl, rfl, rfl, holds_V hw⟩
  obtain ⟨d', w', e1, e2, e3⟩ := randombytes_eq _ _ _ hs hw num (by norm_num)
  rcases Rng.C49_generate ecb ecb_is_block _ _ hw num none (fun a ha => (by cases ha)) with ⟨_, _, out, d2, f1, f2, _, f4, f5⟩ | ⟨f1, _⟩ | ⟨_, ⟨a, ha, _⟩, _⟩
  · rw [e1] at f1
    injection f1 with f1
    injection f1 with g1 g2
    rw [show Rng.padded none = none from rfl] at f4 f5
    have hK0 : IsBytes ({ w with ctr := 0 } : Work).K := hK
    have o1 : (specGenerate ecb { w with ctr := 0 } num none).1 = (specGenerate Aes.Spec.cipher w num none).1 := by
      rw [specGenerate_aes _ hK0]
      rfl
    have r0 : (randombytes { c with reseedCounter := 0 } num).1 = (randombytes c num).1 := rfl
    have hKn : IsBytes (specGenerate ecb { w with ctr := 0 } num none).2.K := specUpdate_bytes _ _ (by decide)
    rw [← r0, g1, ← o1]
    refine ⟨f4, f2, ?_⟩
    rw [← g2] at f5
    rw [specGenerate_aes _ hK0] at f5 hKn
    refine ⟨e2.1.trans f5.1, hKn, e2.2.1.trans f5.2.1, f5.2.2.1, ?_⟩
    show c.reseedCounter + 1 = w.ctr + 1
    rw [h4]
  · exact absurd f1 (by norm_num)
  · cases ha

/-- **C96**: any sequence of requests. -/
theorem C96_history (ks : List Nat) (c : Ctx) (w : Work) (h : HoldsC c w) :
    (run c ks).1 = (specRun Aes.Spec.cipher w ks).1 ∧ (run c ks).1.map List.length = ks ∧ HoldsC (run c ks).2 (specRun Aes.Spec.cipher w ks).2 := by
  induction ks generalizing c w with
  | nil => exact ⟨rfl, rfl, h⟩
  | cons k ks ih =>
    obtain ⟨h1, h2, h3⟩ := C96_randombytes c w h k
    obtain ⟨i1, i2, i3⟩ := ih _ _ h3
    refine ⟨?_, ?_, i3⟩
    · show (randombytes c k).1 :: (run (randombytes c k).2 ks).1 = (specGenerate Aes.Spec.cipher w k none).1 :: (specRun Aes.Spec.cipher (specGenerate Aes.Spec.cipher w k none).2 ks).1
      rw [h1, i1]
    · show (randombytes c k).1.length :: (run (randombytes c k).2 ks).1.map List.length = k :: ks
      rw [h2, i2]

/-- **C96**: `randombytes_init` is CTR_DRBG_Instantiate without derivation function: the state after the update with `entropy ⊕ personalization` from zero. -/
theorem C96_init (seed : Bytes) (hs : seed.length = 48) (hb : IsBytes seed) (pers : Option Bytes) (hp : ∀ p, pers = some p → p.length = 48 ∧ IsBytes p) :
    HoldsC (randombytesInit seed pers) { specUpdate Aes.Spec.cipher ⟨List.replicate 32 0, 0, 0⟩ (List.zipWith (· ^^^ ·) seed (pers.getD (List.replicate 48 0))) with ctr := 1 } := by
  have key : ∀ p : Bytes, p.length = 48 → IsBytes p →
      HoldsC (randombytesInit seed (some p)) { specUpdate Aes.Spec.cipher ⟨List.replicate 32 0, 0, 0⟩ (List.zipWith (· ^^^ ·) seed p) with ctr := 1 } := by
    intro p hl hpb
    obtain ⟨d, w, h1, h2, h3⟩ := init_eq seed p hs hl hb hpb
    rcases Rng.C49_init ecb ecb_is_block seed p hb hpb with ⟨_, _, d2, f1, f2, f3⟩ | ⟨f1, _⟩
    · rw [h1] at f1
      injection f1 with f1
      rw [← f1, hl, Nat.sub_self, List.replicate_zero, List.append_nil] at f3
      have hz : IsBytes (⟨List.replicate 32 0, 0, 0⟩ : Work).K := by decide
      rw [specUpdate_aes _ hz] at f3
      refine ⟨h2.1.trans f3.1, ?_, h2.2.1.trans f3.2.1, f3.2.2.1, h2.2.2.1.trans f3.2.2.2⟩
      have := specUpdate_bytes ⟨List.replicate 32 0, 0, 0⟩ (List.zipWith (· ^^^ ·) seed p) (Rng.isBytes_xor _ _ hb hpb)
      rw [specUpdate_aes _ hz] at this
      exact this
    · exact absurd ⟨hs, by omega⟩ f1
  cases pers with
  | none => rw [init_none seed hs]; exact key _ (by simp) (by decide)
  | some p => exact key p (hp p rfl).1 (hp p rfl).2

/-- **C96**: without `randombytes_init` the generator runs from the zero key and the zero counter. -/
theorem C96_unseeded : HoldsC Ctx.zero ⟨List.replicate 32 0, 0, 0⟩ := ⟨rfl, by decide, by decide, by norm_num, rfl⟩

/-- The first block of the NIST known-answer files: seed 00 01 … 2f. -/
example : ((run (randombytesInit (List.range 48) none) [48]).1.map (List.take 8)) = [[0x06, 0x15, 0x50, 0x23, 0x4D, 0x15, 0x8C, 0x5E]] := by decide +kernel

/-! ## The seed expander -/

/-- Byte `t` of the key stream: AES of diversifier, total length and block number. -/
def xofByte (seed diversifier : Bytes) (maxlen t : Nat) : Nat :=
  (Aes.Spec.cipher seed (diversifier ++ [maxlen / 2 ^ 24 % 256, maxlen / 2 ^ 16 % 256, maxlen / 2 ^ 8 % 256, maxlen % 256] ++
    [t / 16 / 2 ^ 24 % 256, t / 16 / 2 ^ 16 % 256, t / 16 / 2 ^ 8 % 256, t / 16 % 256])).getD (t % 16) 0

/-- The answers to a sequence of requests when `t` bytes have been delivered: a request is served when it leaves at least one byte of the allowance. -/
def xofSpec (seed diversifier : Bytes) (maxlen : Nat) : Nat → List Nat → List (Option Bytes)
  | _, [] => []
  | t, k :: ks =>
    if t + k < maxlen then some ((List.range k).map fun i => xofByte seed diversifier maxlen (t + i)) :: xofSpec seed diversifier maxlen (t + k) ks
    else none :: xofSpec seed diversifier maxlen t ks

/-- Four bytes of a number. -/
def be32 (n : Nat) : Bytes := [n / 2 ^ 24 % 256, n / 2 ^ 16 % 256, n / 2 ^ 8 % 256, n % 256]

theorem isBytes_be32 (n : Nat) : IsBytes (be32 n) := by
  intro x hx
  simp only [be32, List.mem_cons, List.not_mem_nil, or_false] at hx
  omega

theorem inc_be32 (p : Bytes) (hp : p.length = 12) (n : Nat) (hn : n + 1 < 2 ^ 32) : incLoop 12 4 (p ++ be32 n) = p ++ be32 (n + 1) := by
  obtain ⟨v, h1, h2, h3, h4⟩ := incLoop_spec 4 p (be32 n) [] rfl (isBytes_be32 n)
  rw [hp, List.append_nil, List.append_nil] at h1
  rw [h1]
  congr 1
  match v, h2 with
  | [a, b, c, d], _ =>
    have ha := h3 a (by simp)
    have hb := h3 b (by simp)
    have hc := h3 c (by simp)
    have hd := h3 d (by simp)
    have e1 : value [a, b, c, d] = ((a * 256 + b) * 256 + c) * 256 + d := by simp [value]
    have e2 : value (be32 n) = n := by
      have : value (be32 n) = ((n / 2 ^ 24 % 256 * 256 + n / 2 ^ 16 % 256) * 256 + n / 2 ^ 8 % 256) * 256 + n % 256 := by simp [value, be32]
      rw [this]
      omega
    rw [e1, e2, show 256 ^ 4 = 2 ^ 32 by norm_num, Nat.mod_eq_of_lt hn] at h4
    unfold be32
    rw [← h4]
    refine congr (congrArg List.cons ?_) (congr (congrArg List.cons ?_) (congr (congrArg List.cons ?_) (congrArg (· :: []) ?_))) <;> omega

/-- Where the expander stands after `t` bytes: `n` blocks have been made, and `16 * n - t` of their bytes are left in the buffer. -/
def At (seed diversifier : Bytes) (maxlen t : Nat) (c : Xof) : Prop :=
  ∃ n, c.key = seed ∧ c.ctr = diversifier ++ be32 maxlen ++ be32 n ∧ c.pos ≤ 16 ∧ c.pos + 16 * n = t + 16 ∧ c.buffer.length = 16 ∧
    ∀ m, n = m + 1 → c.buffer = ecb seed (diversifier ++ be32 maxlen ++ be32 m)

theorem ctr_ok {d : Bytes} (hd : d.length = 8) (hb : IsBytes d) (maxlen n : Nat) : (d ++ be32 maxlen ++ be32 n).length = 16 ∧ IsBytes (d ++ be32 maxlen ++ be32 n) := by
  constructor
  · simp [be32, hd]
  · intro x hx
    rcases List.mem_append.1 hx with hx | hx
    · rcases List.mem_append.1 hx with hx | hx
      · exact hb x hx
      · exact isBytes_be32 _ x hx
    · exact isBytes_be32 _ x hx

theorem slice_buffer (seed d : Bytes) (hs : IsBytes seed) (hd : d.length = 8) (hdb : IsBytes d) (maxlen t k : Nat) (c : Xof) (h : At seed d maxlen t c) (hk : c.pos + k ≤ 16) :
    (c.buffer.drop c.pos).take k = (List.range k).map fun i => xofByte seed d maxlen (t + i) := by
  obtain ⟨n, h1, h2, h3, h4, h5, h6⟩ := h
  apply List.ext_getElem
  · simp [h5]; omega
  · intro i i1 i2
    have i3 : i < k := by simpa using i2
    obtain ⟨m, rfl⟩ : ∃ m, n = m + 1 := ⟨n - 1, by omega⟩
    obtain ⟨q1, q2⟩ := ctr_ok hd hdb maxlen m
    have hbuf := h6 m rfl
    rw [Aes.C96_aes seed _ hs q2 q1] at hbuf
    rw [List.getElem_take, List.getElem_drop, List.getElem_map, List.getElem_range]
    unfold xofByte
    have e1 : (t + i) / 16 = m := by omega
    have e2 : (t + i) % 16 = c.pos + i := by omega
    rw [e1, e2]
    have hb2 : Aes.Spec.cipher seed (d ++ [maxlen / 2 ^ 24 % 256, maxlen / 2 ^ 16 % 256, maxlen / 2 ^ 8 % 256, maxlen % 256] ++ [m / 2 ^ 24 % 256, m / 2 ^ 16 % 256, m / 2 ^ 8 % 256, m % 256]) = c.buffer :=
      hbuf.symm
    rw [hb2, List.getD_eq_getElem?_getD, List.getElem?_eq_getElem (by omega)]
    rfl

theorem map_split (f : Nat → Nat) (t a k : Nat) (h : a ≤ k) :
    (List.range a).map (fun i => f (t + i)) ++ (List.range (k - a)).map (fun i => f (t + a + i)) = (List.range k).map fun i => f (t + i) := by
  obtain ⟨b, rfl⟩ := Nat.exists_eq_add_of_le h
  rw [Nat.add_sub_cancel_left, List.range_add, List.map_append, List.map_map]
  congr 1
  apply List.map_congr_left
  intro i _
  simp only [Function.comp_apply, Nat.add_assoc]

theorem seLoop_spec (seed d : Bytes) (hs : IsBytes seed) (hd : d.length = 8) (hdb : IsBytes d) (maxlen : Nat) (fuel : Nat) (c : Xof) (x : Bytes) (t k : Nat) (h : At seed d maxlen t c)
    (hf : k = 0 ∨ k + (if c.pos = 16 then 1 else 0) ≤ fuel) (hr : t + k ≤ 2 ^ 32) :
    ∃ c', seLoop fuel c x k = (x ++ (List.range k).map fun i => xofByte seed d maxlen (t + i), c') ∧ At seed d maxlen (t + k) c' ∧ c'.remaining = c.remaining := by
  induction fuel generalizing c x t k with
  | zero =>
    have hk : k = 0 := by
      rcases hf with h | h
      · exact h
      · split at h <;> omega
    subst hk
    exact ⟨c, by simp [seLoop], h, rfl⟩
  | succ fuel ih =>
    unfold seLoop
    by_cases hk : k > 0
    · rw [if_pos hk]
      have hA := h
      obtain ⟨n, h1, h2, h3, h4, h5, h6⟩ := h
      by_cases hc : k ≤ 16 - c.pos
      · rw [if_pos hc, slice_buffer seed d hs hd hdb maxlen t k c hA (by omega)]
        exact ⟨_, rfl, ⟨n, h1, h2, by simp only; omega, by simp only; omega, h5, h6⟩, rfl⟩
      · rw [if_neg hc, slice_buffer seed d hs hd hdb maxlen t (16 - c.pos) c hA (by omega)]
        simp only
        have hin : incLoop 12 4 c.ctr = d ++ be32 maxlen ++ be32 (n + 1) := by
          rw [h2]
          exact inc_be32 (d ++ be32 maxlen) (by simp [be32, hd]) n (by omega)
        have hnew : At seed d maxlen (t + (16 - c.pos)) { c with buffer := ecb c.key c.ctr, pos := 0, ctr := incLoop 12 4 c.ctr } := by
          refine ⟨n + 1, h1, hin, by norm_num, by simp only; omega, (ecb_block _ _).1, ?_⟩
          intro m hm
          obtain rfl : n = m := by omega
          simp only
          rw [h1, h2]
        obtain ⟨c', g1, g2, g3⟩ := ih _ (x ++ (List.range (16 - c.pos)).map fun i => xofByte seed d maxlen (t + i)) (t + (16 - c.pos)) (k - (16 - c.pos)) hnew
          (by
            right
            simp only
            rcases hf with hf | hf
            · omega
            · rw [if_neg (by norm_num)]
              by_cases hp : c.pos = 16
              · rw [if_pos hp] at hf; omega
              · rw [if_neg hp] at hf; omega) (by omega)
        refine ⟨c', ?_, ?_, g3⟩
        · rw [g1, List.append_assoc, map_split (xofByte seed d maxlen) t (16 - c.pos) k (by omega)]
        · rw [show t + (16 - c.pos) + (k - (16 - c.pos)) = t + k by omega] at g2
          exact g2
    · rw [if_neg hk]
      obtain rfl : k = 0 := by omega
      exact ⟨c, by simp, h, rfl⟩

theorem seRun_spec (seed d : Bytes) (hs : IsBytes seed) (hd : d.length = 8) (hdb : IsBytes d) (maxlen : Nat) (hm : maxlen < 2 ^ 32) (ks : List Nat) (c : Xof) (t : Nat) (ht : t ≤ maxlen)
    (h : At seed d maxlen t c) (hr : c.remaining = maxlen - t) : seRun c ks = xofSpec seed d maxlen t ks := by
  induction ks generalizing c t with
  | nil => rfl
  | cons k ks ih =>
    unfold seRun xofSpec seedexpander
    rw [hr]
    by_cases hk : t + k < maxlen
    · rw [if_pos hk, if_neg (by omega)]
      obtain ⟨c', g1, g2, g3⟩ := seLoop_spec seed d hs hd hdb maxlen (2 * k) { c with remaining := maxlen - t - k } [] t k h (by simp only; split <;> omega) (by omega)
      rw [g1]
      simp only [List.nil_append]
      rw [ih c' (t + k) (by omega) g2 (by rw [g3]; simp only; omega)]
    · rw [if_neg hk, if_pos (by omega)]
      simp only
      rw [ih c t ht h hr]

/-- **C96**: the seed expander: `maxlen` of `2^32` or more is refused; otherwise any sequence of requests is answered from the AES counter-mode stream of seed, diversifier and length, consecutive
bytes without gap or repetition, and a request is refused (leaving the stream where it was) exactly when it would use up the allowance. -/
theorem C96_seedexpander (seed d : Bytes) (hs : IsBytes seed) (hl : seed.length = 32) (hd : d.length = 8) (hdb : IsBytes d) (maxlen : Nat) :
    (2 ^ 32 ≤ maxlen ∧ seedexpanderInit seed d maxlen = none) ∨
      (maxlen < 2 ^ 32 ∧ ∃ c, seedexpanderInit seed d maxlen = some c ∧ ∀ ks, seRun c ks = xofSpec seed d maxlen 0 ks) := by
  unfold seedexpanderInit
  rw [Nat.shiftRight_eq_div_pow]
  by_cases hm : maxlen < 2 ^ 32
  · right
    refine ⟨hm, _, by rw [if_neg (by omega)], fun ks => ?_⟩
    refine seRun_spec seed d hs hd hdb maxlen hm ks _ 0 (by omega) ⟨0, ?_, ?_, le_refl _, rfl, by simp, fun m hm => by omega⟩ (by simp)
    · simp only
      exact List.take_of_length_le (by omega)
    · simp only
      rw [List.take_of_length_le (by omega)]
      congr 2
      unfold be32
      simp only [Nat.shiftRight_eq_div_pow, Nat.div_div_eq_div_mul, ← pow_add]
  · left
    exact ⟨by omega, by rw [if_pos (by omega)]⟩

/-- **C96**: so the last byte of the announced length can never be drawn: whatever the requests, the bytes delivered in all are fewer than `maxlen`. -/
theorem C96_last_byte_false (seed d : Bytes) (maxlen t : Nat) (ht : t < maxlen) (ks : List Nat) :
    t + (((xofSpec seed d maxlen t ks).map fun o => (o.getD []).length).sum) < maxlen := by
  induction ks generalizing t with
  | nil => simpa [xofSpec] using ht
  | cons k ks ih =>
    unfold xofSpec
    by_cases hk : t + k < maxlen
    · rw [if_pos hk]
      have := ih (t + k) hk
      simp only [List.map_cons, List.sum_cons, Option.getD_some, List.length_map, List.length_range]
      omega
    · rw [if_neg hk]
      have := ih t ht
      simp only [List.map_cons, List.sum_cons, Option.getD_none, List.length_nil]
      omega

/-- A run with a refused request in the middle. -/
example : ((seedexpanderInit (List.range 32) (List.range 8) 20).map fun c => (seRun c [5, 15, 14, 1]).map fun o => o.map List.length) = some [some 5, none, some 14, none] := by decide +kernel

end Verif.CRef.Kat
