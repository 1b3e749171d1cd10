import Verif.CRef.Process
import Verif.CRef.KatRngProps
import Verif.CRef.ApiSign
import Verif.CRef.ApiExamples

/-! # The bindings draw their keys and nonces from a generator that was never seeded -/

namespace Verif.CRef.Kat

open Verif.Rng (Work specRun)

/-- What a call takes from the generator, by its kind alone: 48 bytes for a key pair, 40 and 48 for a signature under a private key that decodes, nothing otherwise. -/
def draws : Call → List Nat
  | .keypair => [48]
  | .keypairFromSeed _ => []
  | .sign _ sk => if decodeSk sk = none then [] else [40, 48]
  | .verify _ _ => []

theorem run_append (c : Ctx) (a b : List Nat) : run c (a ++ b) = ((run c a).1 ++ (run (run c a).2 b).1, (run (run c a).2 b).2) := by
  induction a generalizing c with
  | nil => rfl
  | cons k a ih =>
    show ((randombytes c k).1 :: (run (randombytes c k).2 (a ++ b)).1, (run (randombytes c k).2 (a ++ b)).2) = _
    rw [ih]
    rfl

theorem step_state (L : Lib) (c : Ctx) (x : Call) : (step L c x).2 = (run c (draws x)).2 := by
  cases x with
  | keypair => rfl
  | keypairFromSeed seed => rfl
  | verify sm pk => rfl
  | sign m sk =>
    show (signC L.enc L.eth L.fuel L.signDyn c m sk).2 = (run c (if decodeSk sk = none then [] else [40, 48])).2
    unfold signC
    cases h : decodeSk sk with
    | none => rw [if_pos rfl]; rfl
    | some p => rw [if_neg (by simp)]; rfl

theorem calls_state (L : Lib) (c : Ctx) (xs : List Call) : (calls L c xs).2 = (run c (xs.flatMap draws)).2 := by
  induction xs generalizing c with
  | nil => rfl
  | cons x xs ih =>
    show (calls L (step L c x).2 xs).2 = _
    rw [ih, step_state, List.flatMap_cons, run_append]

theorem calls_append (L : Lib) (c : Ctx) (xs ys : List Call) : (calls L c (xs ++ ys)).1 = (calls L c xs).1 ++ (calls L (calls L c xs).2 ys).1 := by
  induction xs generalizing c with
  | nil => rfl
  | cons x xs ih =>
    show (step L c x).1 :: (calls L (step L c x).2 (xs ++ ys)).1 = _
    rw [ih]
    rfl

theorem calls_length (L : Lib) (c : Ctx) (xs : List Call) : (calls L c xs).1.length = xs.length := by
  induction xs generalizing c with
  | nil => rfl
  | cons x xs ih =>
    show (calls L (step L c x).2 xs).1.length + 1 = _
    rw [ih]
    rfl

theorem process_next (L : Lib) (xs : List Call) (x : Call) : (process L (xs ++ [x]))[xs.length]? = some (step L (run Ctx.zero (xs.flatMap draws)).2 x).1 := by
  unfold process
  rw [calls_append, List.getElem?_append_right (by rw [calls_length]), calls_length, Nat.sub_self, calls_state]
  rfl

/-- The bytes a request is answered with after the draws `ks`, by the specification of CTR_DRBG under the zero key. -/
def zeroDraw (ks : List Nat) (k : Nat) : Bytes := ((specRun Aes.Spec.cipher ⟨List.replicate 32 0, 0, 0⟩ (ks ++ [k])).1).getLastD []

theorem draw_eq (ks : List Nat) (k : Nat) : (randombytes (run Ctx.zero ks).2 k).1 = zeroDraw ks k := by
  unfold zeroDraw
  rw [← (C96_history (ks ++ [k]) Ctx.zero _ C96_unseeded).1, run_append]
  show _ = List.getLastD ((run Ctx.zero ks).1 ++ [(randombytes (run Ctx.zero ks).2 k).1]) []
  rw [List.getLastD_concat]

/-- **C97 (keys are not secret)**: whatever the program did before, a key pair it generates is the one made from bytes that are a function of the kinds of its earlier calls only: CTR_DRBG under the
zero key.  No entropy enters: every process with the same pattern of calls gets the same key pair. -/
theorem C97_keypair_false (L : Lib) (xs : List Call) : (process L (xs ++ [.keypair]))[xs.length]? = some (.key (L.kp (zeroDraw (xs.flatMap draws) 48))) := by
  rw [process_next, ← draw_eq]
  rfl

/-- **C97 (nonces are not fresh)**: a signature carries the nonce and the sampler seed that are a function of the kinds of the earlier calls only. -/
theorem C97_sign_false (L : Lib) (xs : List Call) (m sk : Bytes) (hk : decodeSk sk ≠ none) :
    (process L (xs ++ [.sign m sk]))[xs.length]? =
      some (.signed (signWith L.enc L.eth L.fuel L.signDyn (zeroDraw (xs.flatMap draws) 40) (zeroDraw (xs.flatMap draws ++ [40]) 48) m sk)) := by
  rw [process_next, ← draw_eq, ← draw_eq]
  show some (Reply.signed (signC L.enc L.eth L.fuel L.signDyn (run Ctx.zero (xs.flatMap draws)).2 m sk).1) = _
  unfold signC
  cases h : decodeSk sk with
  | none => exact absurd h hk
  | some p =>
    simp only
    rw [run_append]
    rfl

/-- The first 48 bytes of the generator under the zero key. -/
def zeroSeed : Bytes :=
  [0x53, 0x0f, 0x8a, 0xfb, 0xc7, 0x45, 0x36, 0xb9, 0xa9, 0x63, 0xb4, 0xf1, 0xc4, 0xcb, 0x73, 0x8b,
   0xce, 0xa7, 0x40, 0x3d, 0x4d, 0x60, 0x6b, 0x6e, 0x07, 0x4e, 0xc5, 0xd3, 0xba, 0xf3, 0x9d, 0x18,
   0x72, 0x60, 0x03, 0xca, 0x37, 0xa6, 0x2a, 0x74, 0xd1, 0xa2, 0xf5, 0x8e, 0x75, 0x06, 0x35, 0x8e]

set_option maxRecDepth 100000 in
theorem zeroSeed_eq : (randombytes Ctx.zero 48).1 = zeroSeed := by decide +kernel

theorem first40 : (randombytes Ctx.zero 40).1 = zeroSeed.take 40 := by decide +kernel

/-- **C97**: the first key pair of every process is made from one published seed. -/
theorem C97_first_key (L : Lib) (xs : List Call) : (process L (.keypair :: xs)).head? = some (.key (L.kp zeroSeed)) := by
  rw [← zeroSeed_eq]
  rfl

theorem signed_nonce (enc : List Int → Option Bytes) (eth : Bool) (fuel : Nat) (signDyn : SignDyn) (nonce seed m sk sm : Bytes) (hn : nonce.length = 40)
    (h : signWith enc eth fuel signDyn nonce seed m sk = .done sm) : (sm.drop 2).take 40 = nonce := by
  unfold signWith at h
  split at h
  · cases h
  · split at h
    · cases h
    · simp only at h
      split at h
      · cases h
      · split at h
        · cases h
        · injection h with h
          rw [← h, List.append_assoc, List.append_assoc, ← hn]
          simp

/-- **C97**: the first signature of every process, whatever the key and the message, carries the same nonce. -/
theorem C97_first_nonce (L : Lib) (m sk : Bytes) (xs : List Call) (sm : Bytes) (h : (process L (.sign m sk :: xs)).head? = some (.signed (.done sm))) : (sm.drop 2).take 40 = zeroSeed.take 40 := by
  have h1 : some (Reply.signed (signC L.enc L.eth L.fuel L.signDyn Ctx.zero m sk).1) = some (.signed (.done sm)) := h
  injection h1 with h1
  injection h1 with h2
  unfold signC at h2
  cases hd : decodeSk sk with
  | none =>
    rw [hd] at h2
    cases h2
  | some p =>
    rw [hd] at h2
    simp only at h2
    rw [← first40]
    exact signed_nonce _ _ _ _ _ _ _ _ _ (by rw [first40]; rfl) h2

/-- There are private keys that decode, as C97_sign_false asks, with any earlier calls. -/
example (L : Lib) (xs : List Call) : ∃ sk, decodeSk sk ≠ none ∧ ∀ m, (process L (xs ++ [.sign m sk]))[xs.length]? =
    some (.signed (signWith L.enc L.eth L.fuel L.signDyn (zeroDraw (xs.flatMap draws) 40) (zeroDraw (xs.flatMap draws ++ [40]) 48) m sk)) := by
  obtain ⟨_, sk, sm, ⟨fuel, h⟩, _⟩ := chain_instance true 1 1 (by decide +kernel) (by norm_num)
  have hk : decodeSk sk ≠ none := by
    intro hn
    unfold signWith at h
    rw [hn] at h
    cases h
  exact ⟨sk, hk, fun m => C97_sign_false L xs m sk hk⟩

/-- Two programs that differ in what they signed and checked before get the same key pair. -/
example (L : Lib) (s1 s2 a b : Bytes) : (process L [.keypairFromSeed s1, .verify a b, .keypair])[2]? = (process L [.verify b a, .keypairFromSeed s2, .keypair])[2]? := by
  rw [show [Call.keypairFromSeed s1, .verify a b, .keypair] = [Call.keypairFromSeed s1, .verify a b] ++ [.keypair] from rfl,
    show [Call.verify b a, .keypairFromSeed s2, .keypair] = [Call.verify b a, .keypairFromSeed s2] ++ [.keypair] from rfl]
  exact (C97_keypair_false L [Call.keypairFromSeed s1, .verify a b]).trans (C97_keypair_false L [Call.verify b a, .keypairFromSeed s2]).symm

end Verif.CRef.Kat
