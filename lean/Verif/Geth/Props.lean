import Verif.Geth.Model
import Verif.CRef.ApiKeys
import Verif.CRef.KatRngProps
import Verif.CRef.KgKeys
import Verif.CRef.ApiExamples

/-! # The precompile and the Go wrapper (C94) -/

namespace Verif.Geth

open Verif.CRef
open Verif.CRef.Kat (Ctx signC randombytes)

/-- The bound on the hash loop enters through the hash only. -/
theorem open_shape (sm pk : Bytes) (hb : IsBytes sm) : (∃ r, ∀ fuel, signOpen false fuel sm pk = r) ∨
    ∃ (d : Bytes) (k : List Nat → Res), IsBytes d ∧ ∀ fuel, signOpen false fuel sm pk = (match hashPieces false [d] fuel with | none => Res.running | some hm => k hm) := by
  unfold signOpen openWith
  by_cases c1 : pk.getD 0 0 ≠ 0x00 + 9
  · exact Or.inl ⟨.fail, fun _ => if_pos c1⟩
  simp only [if_neg c1]
  cases hk : key14 (pk.drop 1) with
  | none => exact Or.inl ⟨.fail, fun _ => rfl⟩
  | some h =>
  simp only
  obtain ⟨d, hdd⟩ : ∃ d, (sm.drop 2).take (40 + (sm.length - 2 - 40 - (sm.getD 0 0 <<< 8 ||| sm.getD 1 0))) = d := ⟨_, rfl⟩
  have hbd : IsBytes d := fun b hm => hb b (List.mem_of_mem_drop (List.mem_of_mem_take (hdd ▸ hm)))
  by_cases c2 : sm.length < 2 + 40
  · exact Or.inl ⟨.fail, fun _ => if_pos c2⟩
  simp only [if_neg c2]
  by_cases c3 : (sm.getD 0 0 <<< 8 ||| sm.getD 1 0) > sm.length - 2 - 40
  · exact Or.inl ⟨.fail, fun _ => if_pos c3⟩
  simp only [if_neg c3]
  by_cases c4 : (sm.getD 0 0 <<< 8 ||| sm.getD 1 0) < 1 ∨ (sm.drop (2 + 40 + (sm.length - 2 - 40 - (sm.getD 0 0 <<< 8 ||| sm.getD 1 0)))).getD 0 0 ≠ 0x20 + 9
  · exact Or.inl ⟨.fail, fun _ => if_pos c4⟩
  simp only [if_neg c4]
  cases hd : compDecode 9 (((sm.drop (2 + 40 + (sm.length - 2 - 40 - (sm.getD 0 0 <<< 8 ||| sm.getD 1 0)))).drop 1).take ((sm.getD 0 0 <<< 8 ||| sm.getD 1 0) - 1)) with
  | none => exact Or.inl ⟨.fail, fun _ => rfl⟩
  | some p =>
  obtain ⟨s, len⟩ := p
  simp only
  by_cases c5 : len ≠ (sm.getD 0 0 <<< 8 ||| sm.getD 1 0) - 1
  · exact Or.inl ⟨.fail, fun _ => if_pos c5⟩
  simp only [if_neg c5, hdd]
  exact Or.inr ⟨d, fun hm => if verifyRaw 9 hm s h then .done ((sm.drop (2 + 40)).take (sm.length - 2 - 40 - (sm.getD 0 0 <<< 8 ||| sm.getD 1 0))) else .fail, hbd, fun _ => rfl⟩

/-- A run that ends gives one answer, whatever the bound on the hash loop. -/
theorem open_fuel (sm pk : Bytes) (hb : IsBytes sm) (f1 f2 : Nat) (h1 : signOpen false f1 sm pk ≠ .running) (h2 : signOpen false f2 sm pk ≠ .running) :
    signOpen false f1 sm pk = signOpen false f2 sm pk := by
  rcases open_shape sm pk hb with ⟨r, h⟩ | ⟨d, k, hd, h⟩
  · rw [h, h]
  · rw [h] at h1 h2
    rw [h, h]
    cases e1 : hashPieces false [d] f1 with
    | none => rw [e1] at h1; exact absurd rfl h1
    | some a =>
      cases e2 : hashPieces false [d] f2 with
      | none => rw [e2] at h2; exact absurd rfl h2
      | some b => rw [hashes_unique ((hash_one false d hd a).1 ⟨_, e1⟩) ((hash_one false d hd b).1 ⟨_, e2⟩)]

/-- Only the first 897 bytes of the key are read. -/
theorem open_take (sm pk : Bytes) (fuel : Nat) : signOpen false fuel sm pk = signOpen false fuel sm (pk.take 897) := by
  have e0 : (pk.take 897).getD 0 0 = pk.getD 0 0 := by cases pk <;> rfl
  have e1 : key14 ((pk.take 897).drop 1) = key14 (pk.drop 1) := by
    unfold key14
    rw [List.drop_take, List.take_take, Nat.min_self]
  unfold signOpen openWith
  rw [e0, e1]

theorem take_bytes {a : Bytes} (h : IsBytes a) (k : Nat) : IsBytes (a.take k) := fun b hb => h b (List.mem_of_mem_take hb)

/-- Opening with whatever lies behind the key. -/
theorem open_mem (sig m pk behind : Bytes) (hb : IsBytes sig) (hp : IsBytes (pk ++ behind)) (hl : 897 ≤ (pk ++ behind).length) :
    (∃ fuel, signOpen false fuel sig (pk ++ behind) = .done m) ↔ ∃ h, IsKey14 h ((pk ++ behind).take 897) ∧ Signed14 false h m sig := by
  have := C81_open14 false sig ((pk ++ behind).take 897) m hb (take_bytes hp _) (by rw [List.length_take]; omega)
  rw [← this]
  simp only [← open_take]

/-- The message of a signature: it is determined by the bytes of the signature. -/
theorem signed_unique {h h' : List Nat} {m m' sig : Bytes} (hb : IsBytes sig) (pk : Bytes) (hp : IsBytes pk) (hl : pk.length = 897) (k : IsKey14 h pk) (k' : IsKey14 h' pk)
    (s : Signed14 false h m sig) (s' : Signed14 false h' m' sig) : m = m' := by
  obtain ⟨f1, e1⟩ := (C81_open14 false sig pk m hb hp hl).2 ⟨h, k, s⟩
  obtain ⟨f2, e2⟩ := (C81_open14 false sig pk m' hb hp hl).2 ⟨h', k', s'⟩
  have := open_fuel sig pk hb f1 f2 (by rw [e1]; simp) (by rw [e2]; simp)
  rw [e1, e2] at this
  injection this

section
variable (sig msg pk behind : Bytes)

theorem verify_cases (fuel : Nat) (h1 : sig ≠ []) (h2 : pk ≠ []) : verifySignature fuel sig msg pk behind =
    match signOpen false fuel sig (pk ++ behind) with
    | .running => .running
    | .fail => .error
    | .done m => if 1024 < m.length then .corrupt else .ok (decide (m = msg)) := by
  unfold verifySignature
  rw [if_neg h1, if_neg h2]
  rfl

/-- **C94 (wrapper)**: `VerifySignature` answers `true` exactly for the valid signatures on the message under the key made of the first 897 bytes in memory. -/
theorem C94_verify (hs : IsBytes sig) (hp : IsBytes (pk ++ behind)) (hl : 897 ≤ (pk ++ behind).length) (h1 : sig ≠ []) (h2 : pk ≠ []) :
    (∃ fuel, verifySignature fuel sig msg pk behind = .ok true) ↔ msg.length ≤ 1024 ∧ ∃ h, IsKey14 h ((pk ++ behind).take 897) ∧ Signed14 false h msg sig := by
  rw [← open_mem sig msg pk behind hs hp hl]
  constructor
  · rintro ⟨fuel, h⟩
    rw [verify_cases _ _ _ _ _ h1 h2] at h
    split at h
    · cases h
    · cases h
    next m hm =>
    split at h
    · cases h
    next hc =>
    injection h with h
    have := of_decide_eq_true h
    subst this
    exact ⟨by omega, fuel, hm⟩
  · rintro ⟨hl, fuel, h⟩
    refine ⟨fuel, ?_⟩
    rw [verify_cases _ _ _ _ _ h1 h2, h]
    simp only
    rw [if_neg (by omega)]
    simp

/-- **C94 (wrapper)**: `VerifySignature` answers `false` without an error exactly for the valid signatures on another message. -/
theorem C94_verify_other (hs : IsBytes sig) (hp : IsBytes (pk ++ behind)) (hl : 897 ≤ (pk ++ behind).length) (h1 : sig ≠ []) (h2 : pk ≠ []) :
    (∃ fuel, verifySignature fuel sig msg pk behind = .ok false) ↔ ∃ m h, m ≠ msg ∧ m.length ≤ 1024 ∧ IsKey14 h ((pk ++ behind).take 897) ∧ Signed14 false h m sig := by
  have key := fun m => open_mem sig m pk behind hs hp hl
  constructor
  · rintro ⟨fuel, h⟩
    rw [verify_cases _ _ _ _ _ h1 h2] at h
    split at h
    · cases h
    · cases h
    next m hm =>
    split at h
    · cases h
    next hc =>
    injection h with h
    obtain ⟨H, k1, k2⟩ := (key m).1 ⟨fuel, hm⟩
    exact ⟨m, H, of_decide_eq_false h, by omega, k1, k2⟩
  · rintro ⟨m, H, hne, hl, k1, k2⟩
    obtain ⟨fuel, hf⟩ := (key m).2 ⟨H, k1, k2⟩
    refine ⟨fuel, ?_⟩
    rw [verify_cases _ _ _ _ _ h1 h2, hf]
    simp only
    rw [if_neg (by omega), decide_eq_false hne]

/-- **C94 is false of the code (long messages)**: a valid signature on a message of more than 1024 bytes makes the wrapper write beyond its buffer, and nothing else does. -/
theorem C94_overflow_false (hs : IsBytes sig) (hp : IsBytes (pk ++ behind)) (hl : 897 ≤ (pk ++ behind).length) (h1 : sig ≠ []) (h2 : pk ≠ []) :
    (∃ fuel, verifySignature fuel sig msg pk behind = .corrupt) ↔ ∃ m h, 1024 < m.length ∧ IsKey14 h ((pk ++ behind).take 897) ∧ Signed14 false h m sig := by
  have key := fun m => open_mem sig m pk behind hs hp hl
  constructor
  · rintro ⟨fuel, h⟩
    rw [verify_cases _ _ _ _ _ h1 h2] at h
    split at h
    · cases h
    · cases h
    next m hm =>
    split at h
    next hc =>
      obtain ⟨H, k1, k2⟩ := (key m).1 ⟨fuel, hm⟩
      exact ⟨m, H, hc, k1, k2⟩
    · cases h
  · rintro ⟨m, H, hl, k1, k2⟩
    obtain ⟨fuel, hf⟩ := (key m).2 ⟨H, k1, k2⟩
    refine ⟨fuel, ?_⟩
    rw [verify_cases _ _ _ _ _ h1 h2, hf]
    simp only
    rw [if_pos hl]

/-- **C94 is false of the code (empty slices)**: an empty signature or an empty key stops the process, and nothing else does. -/
theorem C94_panic_false (fuel : Nat) : verifySignature fuel sig msg pk behind = .panic ↔ sig = [] ∨ pk = [] := by
  constructor
  · intro h
    by_contra hn
    push Not at hn
    rw [verify_cases _ _ _ _ _ hn.1 hn.2] at h
    split at h
    · cases h
    · cases h
    · split at h <;> cases h
  · rintro (h | h)
    · unfold verifySignature
      rw [if_pos h]
    · unfold verifySignature
      split
      · rfl
      · first
        | rw [if_pos h]
        | rfl

/-- The wrapper's answer does not depend on the bound of the hash loop. -/
theorem verify_fuel (hs : IsBytes sig) (f1 f2 : Nat) (h1 : verifySignature f1 sig msg pk behind ≠ .running) (h2 : verifySignature f2 sig msg pk behind ≠ .running) :
    verifySignature f1 sig msg pk behind = verifySignature f2 sig msg pk behind := by
  by_cases c1 : sig = []
  · unfold verifySignature; rw [if_pos c1, if_pos c1]
  by_cases c2 : pk = []
  · rw [(C94_panic_false sig msg pk behind f1).2 (Or.inr c2), (C94_panic_false sig msg pk behind f2).2 (Or.inr c2)]
  rw [verify_cases _ _ _ _ _ c1 c2] at h1 h2 ⊢
  rw [verify_cases _ _ _ _ _ c1 c2]
  have e := open_fuel sig (pk ++ behind) hs f1 f2 (by intro e; rw [e] at h1; exact h1 rfl) (by intro e; rw [e] at h2; exact h2 rfl)
  rw [e]

end

/-! ## The precompile -/

/-- The 32-byte big-endian number 0 or 1. -/
def word (b : Bool) : Bytes := List.replicate 31 0 ++ [if b then 1 else 0]

theorem word_inj {a b : Bool} (h : word a = word b) : a = b := by
  cases a <;> cases b <;> first | rfl | exact absurd h (by decide)

section
variable (unpack : Bytes → Option (List Bytes)) (input sig msg pub behind : Bytes)

theorem run_cases (hu : unpack input = some [sig, msg, pub]) (fuel : Nat) : run unpack fuel input behind =
    match verifySignature fuel sig msg pub behind with
    | .running => .running
    | .panic => .panic
    | .corrupt => .corrupt
    | .error => .ok (word false)
    | .ok b => .ok (word b) := by
  unfold run
  rw [hu]
  rfl

/-- **C94 (precompile)**: with a key of the right size (or longer) and a message that fits the wrapper's buffer, the precompile returns 1 exactly for the valid signatures (SHAKE256, NIST format). -/
theorem C94_accept (hu : unpack input = some [sig, msg, pub]) (hs : IsBytes sig) (hp : IsBytes pub) (hl : 897 ≤ pub.length) (h1 : sig ≠ []) (hb : IsBytes behind) :
    (∃ fuel, run unpack fuel input behind = .ok (word true)) ↔ msg.length ≤ 1024 ∧ ∃ h, IsKey14 h (pub.take 897) ∧ Signed14 false h msg sig := by
  have h2 : pub ≠ [] := by rintro rfl; simp at hl
  have ht : (pub ++ behind).take 897 = pub.take 897 := List.take_append_of_le_length hl
  have := C94_verify sig msg pub behind hs (isBytes_append.2 ⟨hp, hb⟩) (by rw [List.length_append]; omega) h1 h2
  rw [ht] at this
  rw [← this]
  constructor
  · rintro ⟨fuel, h⟩
    rw [run_cases _ _ _ _ _ _ hu] at h
    refine ⟨fuel, ?_⟩
    split at h
    · cases h
    · cases h
    · cases h
    · injection h with h
      exact absurd (word_inj h) (by decide)
    next b hb =>
      injection h with h
      rw [hb, word_inj h]
  · rintro ⟨fuel, h⟩
    refine ⟨fuel, ?_⟩
    rw [run_cases _ _ _ _ _ _ hu, h]

/-- **C94 (precompile)**: an answer is always a 32-byte 0 or 1; an error is returned exactly for input that is not the encoding of three byte strings. -/
theorem C94_output (fuel : Nat) : (∀ out, run unpack fuel input behind = .ok out → out = word false ∨ out = word true) ∧
    (run unpack fuel input behind = .error ↔ ∀ l, unpack input = some l → l.length ≠ 3) := by
  unfold run
  cases unpack input with
  | none => simp
  | some l =>
    simp only
    by_cases hl : l.length ≠ 3
    · rw [if_pos hl]
      refine ⟨fun out h => (by cases h), fun _ l' h => (by injection h with h; rw [← h]; exact hl), fun _ => rfl⟩
    · rw [if_neg hl]
      have hne : ¬ ∀ l', some l = some l' → l'.length ≠ 3 := fun h => hl (h l rfl)
      refine ⟨fun out h => ?_, fun h => absurd h ?_, fun h => absurd h hne⟩
      · split at h
        · cases h
        · cases h
        · cases h
        · injection h with h; exact Or.inl h.symm
        next b _ =>
          injection h with h
          cases b
          · exact Or.inl h.symm
          · exact Or.inr h.symm
      · split <;> simp

/-- **C94 (precompile)**: with a key of the right size the result is a function of the input: neither the memory behind the key nor the bound on the loop matters. -/
theorem C94_determined (hu : unpack input = some [sig, msg, pub]) (hs : IsBytes sig) (hl : 897 ≤ pub.length) (behind' : Bytes) (f1 f2 : Nat)
    (h1 : run unpack f1 input behind ≠ .running) (h2 : run unpack f2 input behind' ≠ .running) : run unpack f1 input behind = run unpack f2 input behind' := by
  have e : ∀ fuel, verifySignature fuel sig msg pub behind' = verifySignature fuel sig msg pub behind := by
    intro fuel
    unfold verifySignature
    rw [open_take sig (pub ++ behind'), open_take sig (pub ++ behind), List.take_append_of_le_length hl, List.take_append_of_le_length hl]
  rw [run_cases _ _ _ _ _ _ hu] at h1 h2 ⊢
  rw [run_cases _ _ _ _ _ _ hu]
  rw [e] at h2 ⊢
  rw [verify_fuel sig msg pub behind hs f1 f2 (by intro e; rw [e] at h1; exact h1 rfl) (by intro e; rw [e] at h2; exact h2 rfl)]

/-- **C94 is false of the code**: input with an empty signature or an empty key stops the node. -/
theorem C94_crash_false (hu : unpack input = some [sig, msg, pub]) (fuel : Nat) : run unpack fuel input behind = .panic ↔ sig = [] ∨ pub = [] := by
  rw [← C94_panic_false sig msg pub behind fuel, run_cases _ _ _ _ _ _ hu]
  constructor
  · intro h
    split at h <;> first | assumption | cases h
  · intro h
    rw [h]

/-- **C94 is false of the code**: a valid signature on a message of more than 1024 bytes corrupts the memory of the node. -/
theorem C94_corrupt_false (hu : unpack input = some [sig, msg, pub]) (hs : IsBytes sig) (hp : IsBytes pub) (hl : pub.length = 897) (hb : IsBytes behind) (m : Bytes) (hm : 1024 < m.length)
    (h : List Nat) (hk : IsKey14 h pub) (hsig : Signed14 false h m sig) : ∃ fuel, run unpack fuel input behind = .corrupt := by
  have h1 : sig ≠ [] := by
    rintro rfl
    obtain ⟨nonce, e, s, hm, _, h2, _⟩ := hsig
    have := congrArg List.length h2
    simp at this
  have h2 : pub ≠ [] := by rintro rfl; simp at hl
  have ht : (pub ++ behind).take 897 = pub := by rw [List.take_append_of_le_length (by omega), List.take_of_length_le (by omega)]
  obtain ⟨fuel, hf⟩ := (C94_overflow_false sig msg pub behind hs (isBytes_append.2 ⟨hp, hb⟩) (by rw [List.length_append]; omega) h1 h2).2 ⟨m, h, hm, by rw [ht]; exact hk, hsig⟩
  refine ⟨fuel, ?_⟩
  rw [run_cases _ _ _ _ _ _ hu, hf]

end

/-! ## A short key -/

/-- No key ends in two bytes 255. -/
theorem no_key (d : Bytes) (h : List Nat) : ¬ IsKey14 h (9 :: (d ++ [255, 255])) := by
  rintro ⟨y, ⟨hl, hlt⟩, ⟨hb, hy, k, hbits⟩, he⟩
  injection he with _ he
  obtain ⟨a, x, rfl⟩ : ∃ a x, h = a ++ [x] := by
    rcases List.eq_nil_or_concat h with rfl | ⟨a, x, e⟩
    · simp at hl
    · exact ⟨a, x, by rw [e, List.concat_eq_append]⟩
  have hx : x < 12289 := hlt x (by simp)
  have hy2 : y.length = 896 := by rw [hy, hl]; decide
  have hk : k = 0 := by
    have := congrArg List.length hbits
    have l1 : ∀ z : Bytes, (bytesBits z).length = 8 * z.length := by
      intro z
      unfold bytesBits
      induction z with
      | nil => rfl
      | cons b z ih => rw [List.flatMap_cons, List.length_append, ih, natBits_length, List.length_cons]; ring
    have l2 : ∀ z : List Nat, (Codec.Spec.fieldBits 14 z).length = 14 * z.length := by
      intro z
      unfold Codec.Spec.fieldBits
      induction z with
      | nil => rfl
      | cons b z ih => rw [List.flatMap_cons, List.length_append, ih, natBits_length, List.length_cons]; ring
    rw [l1, List.length_append, l2, hl, hy2] at this
    unfold zeros at this
    rw [List.length_replicate] at this
    omega
  rw [hk, show zeros 0 = [] from rfl, List.append_nil, ← he] at hbits
  unfold bytesBits Codec.Spec.fieldBits at hbits
  rw [List.flatMap_append, List.flatMap_append, show ([255, 255] : Bytes).flatMap (natBits 8) = [true, true] ++ List.replicate 14 true from by decide, ← List.append_assoc,
    List.flatMap_singleton] at hbits
  have := (List.append_inj' hbits (by simp)).2
  have e := bitsNat_natBits 14 x
  rw [← this, Nat.mod_eq_of_lt (by norm_num; omega)] at e
  have : bitsNat (List.replicate 14 true) = 16383 := by decide
  omega

/-- **C94 is false of the code (short keys)**: the answer of the precompile is not a function of its input.  Cut any valid key anywhere (one byte to two bytes short): the answer is 1 when the rest of the key
happens to lie behind it in memory, and it is never 1 when two bytes 255 do. -/
theorem C94_short_key_false (unpack : Bytes → Option (List Bytes)) (input sig msg pub : Bytes) (n : Nat) (hn : 1 ≤ n) (hn2 : n ≤ 895) (hu : unpack input = some [sig, msg, pub.take n])
    (hs : IsBytes sig) (hp : IsBytes pub) (hl : pub.length = 897) (hm : msg.length ≤ 1024) (h : List Nat) (hk : IsKey14 h pub) (hsig : Signed14 false h msg sig) :
    (∃ fuel, run unpack fuel input (pub.drop n) = .ok (word true)) ∧
      ∀ fill : Bytes, IsBytes fill → fill.length = 895 - n → ∀ fuel, run unpack fuel input (fill ++ [255, 255]) ≠ .ok (word true) := by
  have h1 : sig ≠ [] := by
    rintro rfl
    obtain ⟨nonce, e, s, hm, _, h2, _⟩ := hsig
    have := congrArg List.length h2
    simp at this
  have h2 : pub.take n ≠ [] := by
    intro e
    have := congrArg List.length e
    rw [List.length_take] at this
    have : min n pub.length = 0 := this
    omega
  constructor
  · have e : pub.take n ++ pub.drop n = pub := List.take_append_drop n pub
    obtain ⟨fuel, hf⟩ := (C94_verify sig msg (pub.take n) (pub.drop n) hs (by rw [e]; exact hp) (by rw [e]; omega) h1 h2).2
      ⟨hm, h, by rw [e, List.take_of_length_le (by omega)]; exact hk, hsig⟩
    refine ⟨fuel, ?_⟩
    rw [run_cases _ _ _ _ _ _ hu, hf]
  · intro fill hfb hfl fuel hrun
    have hlen : (pub.take n ++ (fill ++ [255, 255])).length = 897 := by
      rw [List.length_append, List.length_append, List.length_take, hfl]
      show min n pub.length + (895 - n + 2) = 897
      omega
    have hbb : IsBytes (pub.take n ++ (fill ++ [255, 255])) := isBytes_append.2 ⟨take_bytes hp n, isBytes_append.2 ⟨hfb, by decide⟩⟩
    rw [run_cases _ _ _ _ _ _ hu] at hrun
    have hv : verifySignature fuel sig msg (pub.take n) (fill ++ [255, 255]) = .ok true := by
      split at hrun
      · cases hrun
      · cases hrun
      · cases hrun
      · injection hrun with hrun
        exact absurd (word_inj hrun) (by decide)
      next b hb =>
        injection hrun with hrun
        rw [hb, word_inj hrun]
    obtain ⟨_, h', hk', _⟩ := (C94_verify sig msg (pub.take n) (fill ++ [255, 255]) hs hbb (by omega) h1 h2).1 ⟨fuel, hv⟩
    rw [List.take_of_length_le (by omega)] at hk'
    have h9 : ∃ r, pub.take n = 9 :: r := by
      obtain ⟨y, _, _, e⟩ := hk
      obtain ⟨j, rfl⟩ : ∃ j, n = j + 1 := ⟨n - 1, by omega⟩
      exact ⟨y.take j, by rw [e, List.take_succ_cons]⟩
    obtain ⟨r, hr⟩ := h9
    rw [hr, List.cons_append, ← List.append_assoc] at hk'
    exact no_key _ _ hk'

/-! ## Signing -/

theorem sign_length (fuel : Nat) (signDyn : SignDyn) (hd : ∀ sc f g F G c, (signDyn sc f g F G c).length = 512) (nonce seed m sk sm : Bytes) (hn : nonce.length = 40)
    (h : signWith encSig false fuel signDyn nonce seed m sk = .done sm) : 619 + m.length ≤ sm.length ∧ sm.length ≤ 690 + m.length := by
  unfold signWith at h
  split at h
  · cases h
  split at h
  · cases h
  next f g F G _ _ c _ =>
  simp only at h
  split at h
  · cases h
  next e he =>
  split at h
  · cases h
  injection h with h
  unfold encSig at he
  obtain ⟨_, e2, _, e4, _⟩ := (C79_comp_encode _ _ _).1 he
  have e2 := e2 _ rfl
  have := codeLength_ge (signDyn (Shake.flip (Shake.inject Shake.init seed)) f g F G c)
  rw [hd] at this
  rw [← h]
  simp only [List.length_append, List.length_cons, List.length_nil, hn]
  omega

theorem randombytes_ok (c : Ctx) (w : Rng.Work) (h : Kat.HoldsC c w) (k : Nat) :
    (randombytes c k).1.length = k ∧ IsBytes (randombytes c k).1 ∧ ∃ w', Kat.HoldsC (randombytes c k).2 w' := by
  obtain ⟨h1, h2, h3⟩ := Kat.C96_randombytes c w h k
  refine ⟨h2, ?_, _, h3⟩
  rw [h1, ← Kat.specGenerate_aes w (h.2.1)]
  unfold Rng.specGenerate
  exact take_bytes (Kat.stream_isBytes _ _ _) _

section
variable (fuel : Nat) (signDyn : SignDyn) (c : Ctx) (w : Rng.Work) (message sk behind : Bytes)

theorem sign_cases (h1 : message ≠ []) (h2 : sk ≠ []) : (signMessage fuel signDyn c message sk behind).1 =
    match (signC encSig false fuel signDyn c message (sk ++ behind)).1 with
    | .running => .running
    | .fail => .error
    | .done sm => if 1330 < sm.length then .corrupt else .ok sm := by
  unfold signMessage
  rw [if_neg h1, if_neg h2]
  obtain ⟨p, hp⟩ : ∃ p, signC encSig false fuel signDyn c message (sk ++ behind) = p := ⟨_, rfl⟩
  rw [hp]
  obtain ⟨r, c'⟩ := p
  cases r with
  | running => rfl
  | fail => rfl
  | done sm => simp only; split <;> rfl

theorem signC_done (sm : Bytes) (h : (signC encSig false fuel signDyn c message (sk ++ behind)).1 = .done sm) :
    signWith encSig false fuel signDyn (randombytes c 40).1 (randombytes (randombytes c 40).2 48).1 message (sk ++ behind) = .done sm := by
  unfold signC at h
  cases hd : decodeSk (sk ++ behind) with
  | none => rw [hd] at h; cases h
  | some p => rw [hd] at h; exact h

/-- **C94 (signing)**: messages of at most 640 bytes never overflow the buffer of `SignMessage`. -/
theorem C94_sign_short (hd : ∀ sc f g F G c, (signDyn sc f g F G c).length = 512) (hw : Kat.HoldsC c w) (hm : message.length ≤ 640) :
    (signMessage fuel signDyn c message sk behind).1 ≠ .corrupt := by
  intro h
  by_cases c1 : message = []
  · unfold signMessage at h
    rw [if_pos c1] at h
    cases h
  by_cases c2 : sk = []
  · unfold signMessage at h
    rw [if_neg c1, if_pos c2] at h
    cases h
  rw [sign_cases _ _ _ _ _ _ c1 c2] at h
  split at h
  · cases h
  · cases h
  next sm hsm =>
  have := sign_length fuel signDyn hd _ _ _ _ sm (randombytes_ok c w hw 40).1 (signC_done _ _ _ _ _ _ sm hsm)
  rw [if_neg (by omega)] at h
  cases h

/-- **C94 is false of the code (signing)**: a message of 712 bytes or more is never signed: whenever the C code makes a signature, the wrapper's buffer is overrun. -/
theorem C94_sign_long_false (hd : ∀ sc f g F G c, (signDyn sc f g F G c).length = 512) (hw : Kat.HoldsC c w) (hm : 712 ≤ message.length) (h2 : sk ≠ []) :
    (∀ sm, (signMessage fuel signDyn c message sk behind).1 ≠ .ok sm) ∧
      ((∃ sm, (signC encSig false fuel signDyn c message (sk ++ behind)).1 = .done sm) → (signMessage fuel signDyn c message sk behind).1 = .corrupt) := by
  have c1 : message ≠ [] := by rintro rfl; simp at hm
  rw [sign_cases _ _ _ _ _ _ c1 h2]
  have key : ∀ sm, (signC encSig false fuel signDyn c message (sk ++ behind)).1 = .done sm → 1330 < sm.length := by
    intro sm hsm
    have := sign_length fuel signDyn hd _ _ _ _ sm (randombytes_ok c w hw 40).1 (signC_done _ _ _ _ _ _ sm hsm)
    omega
  constructor
  · intro sm h
    split at h
    · cases h
    · cases h
    next sm' hsm =>
      rw [if_pos (key sm' hsm)] at h
      cases h
  · rintro ⟨sm, hsm⟩
    rw [hsm]
    simp only
    rw [if_pos (key sm hsm)]

end

/-- **C94 (sign, then verify)**: what `SignMessage` returns under a key pair, `VerifySignature` and the precompile accept, provided the lattice signer returned a short preimage. -/
theorem C94_roundtrip (fuel : Nat) (signDyn : SignDyn) (hd : ∀ sc f g F G c, (signDyn sc f g F G c).length = 512) (c : Ctx) (w : Rng.Work) (hw : Kat.HoldsC c w) (message sk pk behind : Bytes) (hm : IsBytes message)
    (hp : IsBytes pk) (hpl : pk.length = 897) (hbh : IsBytes behind) (h : List Nat) (hk : IsKey14 h pk) (f g F G : List Int) (hsk : decodeSk sk = some (f, g, F, G)) (sm : Bytes) (hs1 : IsBytes sm)
    (hs : (signMessage fuel signDyn c message sk []).1 = .ok sm)
    (ha : ∀ hc, Hashes false ((randombytes c 40).1 ++ message) hc →
      Accepts 512 34034726 h hc (signDyn (Shake.flip (Shake.inject Shake.init (randombytes (randombytes c 40).2 48).1)) f g F G hc)) :
    (∃ fuel, verifySignature fuel sm message pk behind = .ok true) ∧
      ∀ unpack input, unpack input = some [sm, message, pk] → ∃ fuel, run unpack fuel input behind = .ok (word true) := by
  have c1 : message ≠ [] := by
    intro e
    unfold signMessage at hs
    rw [if_pos e] at hs
    cases hs
  have c2 : sk ≠ [] := by
    intro e
    unfold signMessage at hs
    rw [if_neg c1, if_pos e] at hs
    cases hs
  rw [sign_cases _ _ _ _ _ _ c1 c2] at hs
  obtain ⟨r1, r2, w', r3⟩ := randombytes_ok c w hw 40
  split at hs
  · cases hs
  · cases hs
  next sm' hsm =>
  split at hs
  · cases hs
  next hshort =>
  injection hs with hs
  subst hs
  have hw1 := signC_done _ _ _ _ _ _ _ hsm
  rw [List.append_nil] at hw1
  have hlen := sign_length fuel signDyn hd _ _ _ _ _ r1 hw1
  obtain ⟨f', g', F', G', hc, e, q1, q2, q3, q4, q5⟩ := (sign_iff _ _ _ _ _ _ _ _ r1 r2 hm).1 ⟨fuel, hw1⟩
  have q2 : Hashes false _ hc := (C82_agree false _ _ (by simp) hc).1 q2
  obtain ⟨fuel', ho⟩ := (C87_sign_open14 false signDyn _ _ message sk pk h f g F G hc r1 r2 hm (by simp) hk hsk q2 (hd _ _ _ _ _ _) (ha hc q2)).2 sm' ⟨fuel, hw1⟩
  have hne : sm' ≠ [] := by
    rintro rfl
    simp at hlen
  have hpn : pk ≠ [] := by rintro rfl; simp at hpl
  have hv : verifySignature fuel' sm' message pk behind = .ok true := by
    rw [verify_cases _ _ _ _ _ hne hpn, open_take, List.take_append_of_le_length (by omega), ← open_take, ho]
    simp only
    rw [if_neg (by omega)]
    simp
  refine ⟨⟨fuel', hv⟩, fun unpack input hu => ⟨fuel', ?_⟩⟩
  rw [run_cases _ _ _ _ _ _ hu, hv]

/-! ## Key pairs -/

/-- **C94 (key pairs)**: `GenerateKeypair` never returns an error; the key pair it returns is a Falcon key pair in the NIST format, the public key 897 bytes, the private key 1281. -/
theorem C94_keypair (solver : Kg.Solver) (mem : List ℕ) (hm : mem.length = 512) (orth : List ℤ → List ℤ → Bool) (draws fuel : ℕ) (c : Ctx) (w : Rng.Work) (hw : Kat.HoldsC c w) :
    (generateKeypair (Kg.keypairWith keypair solver mem orth draws fuel) c).1 = .running ∨
      ∃ f g F G h pk sk, (generateKeypair (Kg.keypairWith keypair solver mem orth draws fuel) c).1 = .ok (pk, sk) ∧ IsFalconKey 512 31 f g F G h ∧ IsKey14 h pk ∧ pk.length = 897 ∧
        sk.length = 1281 ∧ decodeSk sk = some (f, g, F, G) := by
  obtain ⟨r1, r2, _⟩ := randombytes_ok c w hw 48
  obtain ⟨seed, hseed⟩ : ∃ seed, (randombytes c 48).1 = seed := ⟨_, rfl⟩
  rw [hseed] at r1 r2
  have e : Kg.keypairFromSeed solver mem orth draws fuel seed = Kg.keypairWith keypair solver mem orth draws fuel seed := by
    unfold Kg.keypairFromSeed
    rw [if_neg (by omega)]
  have hg : (generateKeypair (Kg.keypairWith keypair solver mem orth draws fuel) c).1 =
      match Kg.keypairWith keypair solver mem orth draws fuel seed with
      | .running => .running
      | .fail => .error
      | .done pk sk => .ok (pk.take 897, sk.take 1281) := by
    unfold generateKeypair Kat.keypairC
    rw [← hseed]
    simp only
    cases Kg.keypairWith keypair solver mem orth draws fuel (randombytes c 48).1 <;> rfl
  rw [hg, ← e]
  rcases (Kg.C92_keypair14 solver mem hm orth draws fuel seed r2).2 (by omega) with ⟨h, _⟩ | ⟨f, g, F, G, h, pk, sk, h1, _, h2, h3, _, h4, _, h5, h6⟩
  · rw [h]; exact Or.inl rfl
  · rw [h1]
    refine Or.inr ⟨f, g, F, G, h, pk, sk, ?_, h2, h3, h4, h5, h6⟩
    simp only
    rw [List.take_of_length_le (by omega), List.take_of_length_le (by omega)]

/-! ## Instances -/

/-- For every message whose hash ends there are a key and a signature: the constant 1 is a signature under the key equal to the hash. -/
theorem exists_signed (m : Bytes) (hm : IsBytes m) (hc : List Nat) (hh : Hashes false (nonce5 ++ m) hc) :
    ∃ pub h sig, IsBytes pub ∧ pub.length = 897 ∧ IsKey14 h pub ∧ IsBytes sig ∧ Signed14 false h m sig := by
  have hp := scaleKey_poly 1 hc (hashes_poly hh)
  have hz : ∀ c : Int, (c = 0 ∨ c = 1) → ∀ x ∈ constVec c, -31 ≤ x ∧ x ≤ 31 := fun c hc x hx => by rcases constVec_mem hx with rfl | rfl <;> omega
  have hz' : ∀ c : Int, (c = 0 ∨ c = 1) → ∀ x ∈ constVec c, -127 ≤ x ∧ x ≤ 127 := fun c hc x hx => by rcases constVec_mem hx with rfl | rfl <;> omega
  have hK := C87_keypair14 (constVec 1) (constVec 0) (constVec 0) (scaleKey 1 hc) (constVec_length _) (constVec_length _) (constVec_length _) hp
  obtain ⟨pk, sk, hkp⟩ := hK.1.2 ⟨hz 1 (Or.inr rfl), hz 0 (Or.inl rfl), hz' 0 (Or.inl rfl)⟩
  obtain ⟨k1, k2, k3, _, _, _⟩ := hK.2 pk sk hkp
  obtain ⟨e, he⟩ := comp_one
  unfold encSig at he
  obtain ⟨e1, e2, e3, e4, e5⟩ := (C79_comp_encode _ _ _).1 he
  have e2 := e2 _ rfl
  refine ⟨pk, scaleKey 1 hc, _, k2, k3, k1, ?_, nonce5, e, constVec 1, hc, rfl, rfl, ⟨constVec_length _, e1, e4, e5⟩, hh, accepts_const 1 1 (by decide +kernel) (by norm_num) hc (hashes_poly hh)⟩
  refine isBytes_append.2 ⟨isBytes_append.2 ⟨isBytes_append.2 ⟨?_, nonce5_bytes⟩, hm⟩, isBytes_cons.2 ⟨by decide, e3⟩⟩
  refine isBytes_cons.2 ⟨?_, isBytes_cons.2 ⟨Nat.mod_lt _ (by norm_num), fun b hb => (by cases hb)⟩⟩
  omega

/-- **C94 is false of the code (attack)**: for every message of more than 1024 bytes whose hash ends, some input to the precompile corrupts the memory of the node; for every message, some input is a valid signature that becomes
dependent on the memory behind it once the key is cut. -/
theorem C94_attack_false (m : Bytes) (hm : IsBytes m) (hc : List Nat) (hh : Hashes false (nonce5 ++ m) hc) :
    ∃ pub sig, IsBytes pub ∧ pub.length = 897 ∧ IsBytes sig ∧
      (1024 < m.length → ∀ unpack input msg behind, IsBytes behind → unpack input = some [sig, msg, pub] → ∃ fuel, run unpack fuel input behind = .corrupt) ∧
      (m.length ≤ 1024 → ∀ unpack input behind, IsBytes behind → unpack input = some [sig, m, pub] → ∃ fuel, run unpack fuel input behind = .ok (word true)) ∧
      (m.length ≤ 1024 → ∀ unpack input, unpack input = some [sig, m, pub.take 64] → ∃ b1 b2, (∃ fuel, run unpack fuel input b1 = .ok (word true)) ∧ ∀ fuel, run unpack fuel input b2 ≠ .ok (word true)) := by
  obtain ⟨pub, h, sig, p1, p2, p3, p4, p5⟩ := exists_signed m hm hc hh
  have h1 : sig ≠ [] := by
    rintro rfl
    obtain ⟨nonce, e, s, hm, _, h2, _⟩ := p5
    have := congrArg List.length h2
    simp at this
  refine ⟨pub, sig, p1, p2, p4, fun hl unpack input msg behind hb hu => C94_corrupt_false unpack input sig msg pub behind hu p4 p1 p2 hb m hl h p3 p5, fun hl unpack input behind hb hu => ?_, fun hl unpack input hu => ?_⟩
  · exact (C94_accept unpack input sig m pub behind hu p4 p1 (by omega) h1 hb).2 ⟨hl, h, by rw [List.take_of_length_le (by omega)]; exact p3, p5⟩
  · obtain ⟨q1, q2⟩ := C94_short_key_false unpack input sig m pub 64 (by norm_num) (by norm_num) hu p4 p1 p2 hl h p3 p5
    exact ⟨_, _, q1, q2 (List.replicate 831 0) (fun b hb => by rw [List.eq_of_mem_replicate hb]; norm_num) (by rw [List.length_replicate])⟩

/-- The hypotheses hold for the message `[6]`. -/
example : ∃ pub sig, ∀ unpack input behind, IsBytes behind → unpack input = some [sig, [6], pub] → ∃ fuel, run unpack fuel input behind = .ok (word true) := by
  obtain ⟨hc, hh⟩ := hash_six false
  obtain ⟨pub, sig, _, _, _, _, h, _⟩ := C94_attack_false [6] six_bytes hc hh
  exact ⟨pub, sig, h (by decide)⟩

end Verif.Geth
