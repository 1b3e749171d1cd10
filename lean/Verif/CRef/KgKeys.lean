import Verif.CRef.KgProps
import Verif.CRef.KgApi
import Verif.CRef.ApiKeys
import Verif.CRef.ShakeProps

/-! # Property C92: key pairs from a seed -/

namespace Verif.CRef.Kg
open Verif Verif.Ring Verif.Falcon

/-! ## The random words -/

/-- The 64-bit word number `i` of the SHAKE256 stream of `seed`, least significant byte first. -/
def shakeWord (seed : Bytes) (i : ℕ) : ℕ := Nat.ofDigits 256 ((List.range 8).map fun j => Hash.shakeByte seed (8 * i + j))

/-- The words `i`, `i + 1`, … of the stream of `seed`, one after the other. -/
def words (seed : Bytes) (i : ℕ) : ℕ × ℕ := (shakeWord seed i, i + 1)

theorem or_le {a b i : ℕ} (ha : a < 2 ^ i) : a ||| b <<< i = a + 2 ^ i * b := by
  rw [Nat.or_comm, Nat.shiftLeft_eq, Nat.mul_comm, Nat.add_comm]
  exact (Nat.two_pow_add_eq_or_of_lt ha b).symm

theorem word_bytes (t : List ℕ) (h : ∀ i : ℕ, t[i]! < 256) :
    t[0]! ||| t[1]! <<< 8 ||| t[2]! <<< 16 ||| t[3]! <<< 24 ||| t[4]! <<< 32 ||| t[5]! <<< 40 ||| t[6]! <<< 48 ||| t[7]! <<< 56 = Nat.ofDigits 256 ((List.range 8).map fun j => t[j]!) := by
  rw [show List.range 8 = [0, 1, 2, 3, 4, 5, 6, 7] by decide]
  simp only [List.map_cons, List.map_nil, Nat.ofDigits_cons, Nat.ofDigits_nil]
  have h0 := h 0; have h1 := h 1; have h2 := h 2; have h3 := h 3; have h4 := h 4; have h5 := h 5; have h6 := h 6
  generalize t[0]! = a at *
  generalize t[1]! = b at *
  generalize t[2]! = c at *
  generalize t[3]! = d at *
  generalize t[4]! = e at *
  generalize t[5]! = f at *
  generalize t[6]! = g at *
  rw [or_le (i := 8) (by norm_num; omega), or_le (i := 16) (by norm_num; omega), or_le (i := 24) (by norm_num; omega), or_le (i := 32) (by norm_num; omega), or_le (i := 40) (by norm_num; omega),
    or_le (i := 48) (by norm_num; omega), or_le (i := 56) (by norm_num; omega)]
  push_cast
  ring

attribute [local irreducible] Keccak.Spec.F Shake.processBlock Hash.shakeByte

theorem rng_at (seed : Bytes) (i : ℕ) (c : Shake.Ctx) (hc : Shake.At (shakeState seed) (8 * i) c) :
    (getRngU64 c).1 = shakeWord seed i ∧ Shake.At (shakeState seed) (8 * (i + 1)) (getRngU64 c).2 := by
  obtain ⟨e1, e2⟩ := extract_at seed (8 * i) 8 c hc
  refine ⟨?_, e2⟩
  unfold getRngU64
  dsimp only
  rw [e1]
  have hb : Keccak.Spec.shake256 seed (8 * i) 8 = (List.range 8).map fun j => Hash.shakeByte seed (8 * i + j) := by
    unfold Keccak.Spec.shake256 Hash.shakeByte
    rfl
  rw [hb]
  unfold shakeWord
  rw [word_bytes]
  · congr 1
  · intro j
    by_cases hj : j < 8
    · rw [getElem!_pos _ j (by simpa using hj), List.getElem_map, List.getElem_range]
      exact shakeByte_lt _ _
    · rw [List.getElem!_eq_getElem?_getD, List.getElem?_eq_none (by simpa using hj)]
      decide

/-! ## Two sources of the same words -/

section
variable {σ τ : Type} (n1 : σ → ℕ × σ) (n2 : τ → ℕ × τ) (R : σ → τ → Prop)

/-- The two sources give the same words from related states. -/
def SameWords : Prop := ∀ s t, R s t → (n1 s).1 = (n2 t).1 ∧ R (n1 s).2 (n2 t).2

variable {n1 n2 R}

theorem mkgauss_same (H : SameWords n1 n2 R) (k : ℕ) (s : σ) (t : τ) (h : R s t) : (mkgauss n1 k s).1 = (mkgauss n2 k t).1 ∧ R (mkgauss n1 k s).2 (mkgauss n2 k t).2 := by
  unfold mkgauss
  generalize List.range (2 ^ (10 - k)) = l
  generalize (0 : ℤ) = z
  induction l generalizing z s t with
  | nil => exact ⟨rfl, h⟩
  | cons a l ih =>
    rw [List.foldl_cons, List.foldl_cons]
    dsimp only
    obtain ⟨a1, a2⟩ := H s t h
    obtain ⟨b1, b2⟩ := H _ _ a2
    rw [a1, b1]
    exact ih _ _ b2 _

/-- Both stop with the same result, and in related states. -/
def Same {α : Type} (R : σ → τ → Prop) : Option (α × σ) → Option (α × τ) → Prop
  | none, none => True
  | some a, some b => a.1 = b.1 ∧ R a.2 b.2
  | _, _ => False

theorem mkgaussPoly_same (H : SameWords n1 n2 R) (k fuel : ℕ) : ∀ (f : List ℤ) (m : ℕ) (s : σ) (t : τ), R s t → Same R (mkgaussPoly n1 k fuel f m s) (mkgaussPoly n2 k fuel f m t) := by
  induction fuel with
  | zero => intro f m s t _; trivial
  | succ fuel ih =>
    intro f m s t h
    obtain ⟨e1, e2⟩ := mkgauss_same H k s t h
    unfold mkgaussPoly
    dsimp only
    rw [e1]
    split
    · exact ih _ _ _ _ e2
    · split
      · split
        · exact ih _ _ _ _ e2
        · exact ⟨rfl, e2⟩
      · exact ih _ _ _ _ e2

theorem keygen_same (H : SameWords n1 n2 R) (solver : Solver) (mem : List ℕ) (orth : List ℤ → List ℤ → Bool) (k draws fuel : ℕ) : ∀ (s : σ) (t : τ), R s t →
    keygen n1 solver mem orth k draws fuel s = keygen n2 solver mem orth k draws fuel t := by
  induction fuel with
  | zero => intro s t _; rfl
  | succ fuel ih =>
    intro s t h
    rw [keygen_succ, keygen_succ]
    have h1 := mkgaussPoly_same H k draws [] 0 s t h
    generalize mkgaussPoly n1 k draws [] 0 s = a at h1 ⊢
    generalize mkgaussPoly n2 k draws [] 0 t = b at h1 ⊢
    match a, b, h1 with
    | none, none, _ => rfl
    | some (f, s1), some (f', t1), ⟨e1, e2⟩ =>
      dsimp only at e1 e2 ⊢
      subst e1
      have h2 := mkgaussPoly_same H k draws [] 0 s1 t1 e2
      generalize mkgaussPoly n1 k draws [] 0 s1 = a at h2 ⊢
      generalize mkgaussPoly n2 k draws [] 0 t1 = b at h2 ⊢
      match a, b, h2 with
      | none, none, _ => rfl
      | some (g, s2), some (g', t2), ⟨e1, e2⟩ =>
        dsimp only at e1 e2 ⊢
        subst e1
        cases judge solver mem orth k f g with
        | none => exact ih s2 t2 e2
        | some r => rfl
end

/-- **C92** (the seed): key generation on the SHAKE256 context of a seed is key generation on the words of the SHAKE256 stream of FIPS 202. -/
theorem C92_stream (solver : Solver) (mem : List ℕ) (orth : List ℤ → List ℤ → Bool) (k draws fuel : ℕ) (seed : Bytes) (hs : IsBytes seed) :
    keygen getRngU64 solver mem orth k draws fuel (Shake.flip (Shake.inject Shake.init seed)) = keygen (words seed) solver mem orth k draws fuel 0 := by
  have h0 := flipped_at [seed] (by intro p hp; rw [List.mem_singleton.1 hp]; exact hs)
  have e : shakeFlipped [seed] = Shake.flip (Shake.inject Shake.init seed) := rfl
  rw [e, show [seed].flatten = seed by simp] at h0
  have H : SameWords getRngU64 (words seed) (fun c i => Shake.At (shakeState seed) (8 * i) c) := by
    intro s t h
    obtain ⟨e1, e2⟩ := rng_at seed t s h
    unfold words
    exact ⟨e1, e2⟩
  refine keygen_same H solver mem orth k draws fuel _ _ ?_
  rw [Nat.mul_zero]
  exact h0

/-! ## Key pairs -/

theorem ntru_modq (n : ℕ) (hn : 0 < n) (f g F G : List ℤ) (h : IsNtru n f g F G) : negMul n (zq G) (zq f) = negMul n (zq g) (zq F) := by
  obtain ⟨hf, hg, hF, hG, he⟩ := h
  have hc : negMul n (zq G) (zq f) = negMul n (zq f) (zq G) := by
    unfold negMul
    refine List.map_congr_left fun k _ => ?_
    unfold negCoeff
    rw [Finset.sum_comm]
    refine Finset.sum_congr rfl fun i _ => Finset.sum_congr rfl fun j _ => ?_
    rw [Nat.add_comm j i, mul_comm ((zq G).getD j 0)]
  rw [hc, ← zq_negMul n f G hf hG hn, ← zq_negMul n g F hg hF hn]
  refine List.ext_getElem (by simp [zq]) fun i h1 h2 => ?_
  have hi : i < n := by simpa [zq] using h1
  have := he i hi
  rw [List.getD_eq_getElem _ _ (by simpa using hi), List.getD_eq_getElem _ _ (by simpa using hi)] at this
  have hz : ∀ (a : List ℤ) (h : i < (zq a).length) (h' : i < a.length), (zq a)[i] = ((a[i] : ℤ) : ZMod 12289) := by
    intro a h h'
    simp [zq]
  rw [hz _ h1 (by simpa using hi), hz _ h2 (by simpa using hi)]
  have hd : (((negMul n f G)[i]'(by simpa using hi) - (negMul n g F)[i]'(by simpa using hi) : ℤ) : ZMod 12289) = 0 := by
    rw [this]
    split
    · decide
    · simp
  rw [Int.cast_sub] at hd
  exact sub_eq_zero.1 hd

theorem nine : (2 : ℤ) ^ (maxFgBits[9]! - 1) - 1 = 31 := by decide

theorem keypair_never (enc : List ℤ → List ℤ → List ℤ → List ℕ → Option (Bytes × Bytes)) (len : ℕ) (isKey : List ℕ → Bytes → Prop)
    (henc : ∀ (f g F : List ℤ) (h : List ℕ), f.length = 512 → g.length = 512 → F.length = 512 → Poly 512 h →
      ((∃ pk sk, enc f g F h = some (pk, sk)) ↔ (∀ x ∈ f, -31 ≤ x ∧ x ≤ 31) ∧ (∀ x ∈ g, -31 ≤ x ∧ x ≤ 31) ∧ (∀ x ∈ F, -127 ≤ x ∧ x ≤ 127)) ∧
      ∀ pk sk, enc f g F h = some (pk, sk) → isKey h pk ∧ IsBytes pk ∧ pk.length = len ∧ IsBytes sk ∧ sk.length = 1281 ∧ DecodesTo f g F sk)
    (solver : Solver) (mem : List ℕ) (hm : mem.length = 512) (orth : List ℤ → List ℤ → Bool) (draws fuel : ℕ) (seed : Bytes) (hs : IsBytes seed) :
    (keypairWith enc solver mem orth draws fuel seed = .running ∧ keygen (words seed) solver mem orth 9 draws fuel 0 = none) ∨
    ∃ f g F G h pk sk, keypairWith enc solver mem orth draws fuel seed = .done pk sk ∧ keygen (words seed) solver mem orth 9 draws fuel 0 = some (f, g, F, G, h) ∧ IsFalconKey 512 31 f g F G h ∧
      isKey h pk ∧ IsBytes pk ∧ pk.length = len ∧ IsBytes sk ∧ sk.length = 1281 ∧ decodeSk sk = some (f, g, F, G) := by
  unfold keypairWith
  rw [C92_stream _ _ _ _ _ _ _ hs]
  cases hk : keygen (words seed) solver mem orth 9 draws fuel 0 with
  | none => exact Or.inl ⟨rfl, rfl⟩
  | some r =>
    obtain ⟨f, g, F, G, h⟩ := r
    have hkey := C90_keygen (words seed) solver mem orth 9 draws (by norm_num) (by norm_num) (by rw [hm]; norm_num) fuel 0 f g F G h hk
    rw [nine, e512] at hkey
    have hn := hkey.ntru
    obtain ⟨l1, l2, l3, l4, _⟩ := hn
    obtain ⟨e1, e2⟩ := henc f g F h l1 l2 l3 hkey.canon
    obtain ⟨pk, sk, hp⟩ := e1.2 ⟨hkey.fBound, hkey.gBound, hkey.FBound⟩
    obtain ⟨p1, p2, p3, p4, p5, p6⟩ := e2 pk sk hp
    refine Or.inr ⟨f, g, F, G, h, pk, sk, by dsimp only; rw [hp], rfl, hkey, p1, p2, p3, p4, p5, ?_⟩
    exact (p6 f g F G).2 ⟨rfl, rfl, rfl, hkey.unit, l4, hkey.GBound, ntru_modq 512 (by norm_num) f g F G hkey.ntru⟩

/-- **C92** (16-bit format): a seed shorter than 32 bytes is refused.  With any other seed the call never returns −1: either it is still running, or it returns the key pair of a Falcon key whose public
key is the 16-bit key of `h = g/f`, and decoding the private key gives the whole key back, with the very `G` that key generation had computed and thrown away. -/
theorem C92_keypair16 (solver : Solver) (mem : List ℕ) (hm : mem.length = 512) (orth : List ℤ → List ℤ → Bool) (draws fuel : ℕ) (seed : Bytes) (hs : IsBytes seed) :
    (seed.length < 32 → keypairFromSeed16 solver mem orth draws fuel seed = .fail) ∧
    (32 ≤ seed.length →
      (keypairFromSeed16 solver mem orth draws fuel seed = .running ∧ keygen (words seed) solver mem orth 9 draws fuel 0 = none) ∨
      ∃ f g F G h pk sk, keypairFromSeed16 solver mem orth draws fuel seed = .done pk sk ∧ keygen (words seed) solver mem orth 9 draws fuel 0 = some (f, g, F, G, h) ∧
        IsFalconKey 512 31 f g F G h ∧ IsKey16 h pk ∧ IsBytes pk ∧ pk.length = 1025 ∧ IsBytes sk ∧ sk.length = 1281 ∧ decodeSk sk = some (f, g, F, G)) := by
  unfold keypairFromSeed16
  refine ⟨fun h => if_pos h, fun h => ?_⟩
  rw [if_neg (by omega)]
  exact keypair_never keypair16 1025 IsKey16 (fun f g F h => C87_keypair16 f g F h) solver mem hm orth draws fuel seed hs

/-- **C92** (NIST format). -/
theorem C92_keypair14 (solver : Solver) (mem : List ℕ) (hm : mem.length = 512) (orth : List ℤ → List ℤ → Bool) (draws fuel : ℕ) (seed : Bytes) (hs : IsBytes seed) :
    (seed.length < 32 → keypairFromSeed solver mem orth draws fuel seed = .fail) ∧
    (32 ≤ seed.length →
      (keypairFromSeed solver mem orth draws fuel seed = .running ∧ keygen (words seed) solver mem orth 9 draws fuel 0 = none) ∨
      ∃ f g F G h pk sk, keypairFromSeed solver mem orth draws fuel seed = .done pk sk ∧ keygen (words seed) solver mem orth 9 draws fuel 0 = some (f, g, F, G, h) ∧
        IsFalconKey 512 31 f g F G h ∧ IsKey14 h pk ∧ IsBytes pk ∧ pk.length = 897 ∧ IsBytes sk ∧ sk.length = 1281 ∧ decodeSk sk = some (f, g, F, G)) := by
  unfold keypairFromSeed
  refine ⟨fun h => if_pos h, fun h => ?_⟩
  rw [if_neg (by omega)]
  exact keypair_never keypair 897 IsKey14 (fun f g F h => C87_keypair14 f g F h) solver mem hm orth draws fuel seed hs

/-- **C92** (both formats): from the same seed the two entry points make the same private key, and public keys of the same polynomial. -/
theorem C92_agree (solver : Solver) (mem : List ℕ) (hm : mem.length = 512) (orth : List ℤ → List ℤ → Bool) (draws fuel : ℕ) (seed : Bytes) (hs : IsBytes seed) (pk16 sk16 pk14 sk14 : Bytes)
    (h16 : keypairFromSeed16 solver mem orth draws fuel seed = .done pk16 sk16) (h14 : keypairFromSeed solver mem orth draws fuel seed = .done pk14 sk14) :
    sk16 = sk14 ∧ ∃ h, IsKey16 h pk16 ∧ IsKey14 h pk14 := by
  have hl : 32 ≤ seed.length := by
    by_contra hc
    rw [(C92_keypair16 solver mem hm orth draws fuel seed hs).1 (by omega)] at h16
    cases h16
  rcases (C92_keypair16 solver mem hm orth draws fuel seed hs).2 hl with ⟨a, _⟩ | ⟨f, g, F, G, h, pk, sk, a1, a2, a3, a4, _⟩
  · rw [a] at h16; cases h16
  rcases (C92_keypair14 solver mem hm orth draws fuel seed hs).2 hl with ⟨a, _⟩ | ⟨f', g', F', G', h', pk', sk', b1, b2, b3, b4, _⟩
  · rw [a] at h14; cases h14
  rw [a2] at b2
  simp only [Option.some.injEq, Prod.mk.injEq] at b2
  obtain ⟨rfl, rfl, rfl, rfl, rfl⟩ := b2
  rw [a1] at h16
  rw [b1] at h14
  simp only [KeyRes.done.injEq] at h16 h14
  obtain ⟨rfl, rfl⟩ := h16
  obtain ⟨rfl, rfl⟩ := h14
  refine ⟨?_, h, a4, b4⟩
  have hg := C92_stream solver mem orth 9 draws fuel seed hs
  rw [a2] at hg
  unfold keypairFromSeed16 keypairWith at a1
  unfold keypairFromSeed keypairWith at b1
  rw [if_neg (by omega), hg] at a1 b1
  dsimp only at a1 b1
  cases k16 : keypair16 f g F h with
  | none => rw [k16] at a1; cases a1
  | some r =>
    cases k14 : keypair f g F h with
    | none => rw [k14] at b1; cases b1
    | some r' =>
      rw [k16] at a1
      rw [k14] at b1
      simp only [KeyRes.done.injEq] at a1 b1
      have e1 := ((keypair16_iff f g F h r.1 r.2).1 k16).1
      have e2 := ((keypair_iff f g F h r'.1 r'.2).1 k14).1
      rw [e1, Option.some.injEq] at e2
      rw [← a1.2, ← b1.2, e2]

end Verif.CRef.Kg
