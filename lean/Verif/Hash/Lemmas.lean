import Verif.Hash.Model
import Verif.Hash.Spec
import Verif.Hash.PrngProps

/-! # Rejection sampling loops -/

namespace Verif.Hash

theorem accepted_succ (st : Nat → Nat) (t : Nat) :
    accepted st (t + 1) = accepted st t ++ (if word16 st t < 61445 then [word16 st t % 12289] else []) := by
  unfold accepted
  rw [List.range_succ, List.map_append, List.filter_append, List.map_append]
  congr 1
  by_cases h : word16 st t < 61445 <;> simp [h]

theorem accepted_prefix (st : Nat → Nat) (t T : Nat) (h : t ≤ T) : accepted st t <+: accepted st T := by
  induction T with
  | zero => rw [show t = 0 by omega]; exact List.prefix_refl _
  | succ T ih =>
    by_cases e : t = T + 1
    · rw [e]; exact List.prefix_refl _
    · rw [accepted_succ]
      exact (ih (by omega)).trans (List.prefix_append _ _)

theorem isPoint_unique {st : Nat → Nat} {n : Nat} {a b : List Nat} (ha : IsPoint st n a) (hb : IsPoint st n b) : a = b := by
  obtain ⟨T, h1, h2⟩ := ha
  obtain ⟨T', h3, h4⟩ := hb
  rcases Nat.le_total T T' with h | h
  · exact (h1 ▸ h3 ▸ accepted_prefix st T T' h : a <+: b).eq_of_length (by omega)
  · exact ((h1 ▸ h3 ▸ accepted_prefix st T' T h : b <+: a).eq_of_length (by omega)).symm

theorem accepted_lt (st : Nat → Nat) (T : Nat) : ∀ x ∈ accepted st T, x < 12289 := by
  intro x hx
  unfold accepted at hx
  obtain ⟨y, _, rfl⟩ := List.mem_map.mp hx
  exact Nat.mod_lt _ (by decide)

/-- Loop state after `t` words. -/
structure Inv (st : Nat → Nat) (n t i : Nat) (hashed : List Nat) : Prop where
  hi : i = (accepted st t).length
  le : i ≤ n
  hh : hashed = accepted st t ++ List.replicate (n - i) 0

theorem inv_zero (st : Nat → Nat) (n : Nat) : Inv st n 0 0 (List.replicate n 0) := ⟨rfl, Nat.zero_le _, rfl⟩

theorem inv_accept {st : Nat → Nat} {n t i : Nat} {hashed : List Nat} (h : Inv st n t i hashed) (hi : i < n) (hw : word16 st t < 61445) :
    Inv st n (t + 1) (i + 1) (hashed.set i (word16 st t % 12289)) := by
  refine ⟨by rw [accepted_succ, if_pos hw, List.length_append, h.hi]; rfl, hi, ?_⟩
  rw [h.hh, accepted_succ, if_pos hw]
  obtain ⟨k, hk⟩ : ∃ k, n - i = k + 1 := ⟨n - i - 1, by omega⟩
  rw [hk, List.replicate_succ, List.set_append_right _ _ (by rw [h.hi]; exact Nat.le_refl _), h.hi, Nat.sub_self, List.set_cons_zero, List.append_assoc]
  rw [h.hi] at hk
  rw [show n - ((accepted st t).length + 1) = k by omega]
  rfl

theorem inv_reject {st : Nat → Nat} {n t i : Nat} {hashed : List Nat} (h : Inv st n t i hashed) (hw : ¬ word16 st t < 61445) :
    Inv st n (t + 1) i hashed := by
  have e : accepted st (t + 1) = accepted st t := by rw [accepted_succ, if_neg hw, List.append_nil]
  exact ⟨by rw [e]; exact h.hi, h.le, by rw [e]; exact h.hh⟩

theorem inv_done {st : Nat → Nat} {n t i : Nat} {hashed : List Nat} (h : Inv st n t i hashed) (hi : ¬ i < n) : accepted st t = hashed ∧ hashed.length = n := by
  have hin : i = n := by have := h.le; omega
  have : hashed = accepted st t := by rw [h.hh, hin, Nat.sub_self]; simp
  exact ⟨this.symm, by rw [this, ← h.hi, hin]⟩

theorem inv_lt {st : Nat → Nat} {n t i T : Nat} {hashed out : List Nat} (h : Inv st n t i hashed) (hi : i < n) (hT : accepted st T = out) (ho : out.length = n) : t < T := by
  refine Nat.lt_of_not_le fun hle => ?_
  have := (accepted_prefix st T t hle).length_le
  rw [hT, ho, ← h.hi] at this
  omega

/-- What `hash_to_point` needs from an XOF class: after `new, update a, update b, flip` the object stands at the start of the stream of `a ++ b` (or raises when
the seed is not `ok`), and reading two bytes advances in the stream while within `lim` (`none`: no limit) and raises beyond. -/
structure Lawful {S : Type} (X : Xof S) (ok : Bytes → Prop) (st : Bytes → Nat → Nat) (lim : Option Nat) where
  at' : Bytes → Nat → S → Prop
  seed : ∀ a b, ok (a ++ b) → ∃ s, (do X.flip (← X.update (← X.update X.new a) b) : Except Err S) = .ok s ∧ at' (a ++ b) 0 s
  refuse : ∀ a b, ¬ ok (a ++ b) → ∃ e, (do X.flip (← X.update (← X.update X.new a) b) : Except Err S) = .error e
  read : ∀ m k s, at' m k s → (∀ L, lim = some L → k + 2 ≤ L) → ∃ s', X.read s 2 = .ok (s', [st m k, st m (k + 1)]) ∧ at' m (k + 2) s'
  readErr : ∀ m k s L, at' m k s → lim = some L → L < k + 2 → ∃ e, X.read s 2 = .error e

variable {S : Type} {X : Xof S} {ok : Bytes → Prop} {st : Bytes → Nat → Nat} {lim : Option Nat}

theorem elt_eq (a b : Nat) : (([a, b] : List Nat).getD 0 0 <<< 8) + ([a, b] : List Nat).getD 1 0 = 256 * a + b := by
  rw [Nat.shiftLeft_eq]; simp; omega

theorem hashLoop_sound (L : Lawful X ok st lim) (m : Bytes) (n : Nat) (fuel t : Nat) (s : S) (i : Nat) (hashed out : List Nat)
    (hs : L.at' m (2 * t) s) (hinv : Inv (st m) n t i hashed) (h : hashLoop X n fuel s i hashed = some (.ok out)) :
    ∃ T, accepted (st m) T = out ∧ out.length = n ∧ (∀ l, lim = some l → t < T → 2 * T ≤ l) ∧ t ≤ T := by
  induction fuel generalizing t s i hashed with
  | zero => simp [hashLoop] at h
  | succ fuel ih =>
    unfold hashLoop at h
    by_cases hi : i < n
    · rw [if_pos hi] at h
      by_cases hlim : ∀ l, lim = some l → 2 * t + 2 ≤ l
      · obtain ⟨s', h1, h2⟩ := L.read m (2 * t) s hs hlim
        rw [h1] at h
        simp only [elt_eq] at h
        rw [show (65536 / 12289 * 12289 : Nat) = 61445 from rfl, show 256 * st m (2 * t) + st m (2 * t + 1) = word16 (st m) t from rfl] at h
        by_cases hw : word16 (st m) t < 61445
        · rw [if_pos hw] at h
          obtain ⟨T, k1, k2, k3, k4⟩ := ih (t + 1) s' _ _ h2 (inv_accept hinv hi hw) h
          refine ⟨T, k1, k2, fun l hl _ => ?_, by omega⟩
          by_cases e : t + 1 < T
          · exact k3 l hl e
          · have := hlim l hl; omega
        · rw [if_neg hw] at h
          obtain ⟨T, k1, k2, k3, k4⟩ := ih (t + 1) s' _ _ h2 (inv_reject hinv hw) h
          refine ⟨T, k1, k2, fun l hl _ => ?_, by omega⟩
          by_cases e : t + 1 < T
          · exact k3 l hl e
          · have := hlim l hl; omega
      · obtain ⟨l, hl, hlt⟩ : ∃ l, lim = some l ∧ l < 2 * t + 2 := by
          apply Classical.byContradiction
          intro hc
          exact hlim fun l hl => Nat.le_of_not_lt fun hx => hc ⟨l, hl, hx⟩
        obtain ⟨e, he⟩ := L.readErr m (2 * t) s l hs hl hlt
        rw [he] at h
        cases h
    · rw [if_neg hi] at h
      cases h
      obtain ⟨k1, k2⟩ := inv_done hinv hi
      exact ⟨t, k1, k2, fun _ _ h => absurd h (Nat.lt_irrefl t), Nat.le_refl t⟩

theorem hashLoop_complete (L : Lawful X ok st lim) (m : Bytes) (n : Nat) (T : Nat) (out : List Nat) (hT : accepted (st m) T = out) (ho : out.length = n)
    (hlim : ∀ l, lim = some l → 2 * T ≤ l) (fuel t : Nat) (s : S) (i : Nat) (hashed : List Nat)
    (hs : L.at' m (2 * t) s) (hinv : Inv (st m) n t i hashed) (hf : T < t + fuel) (htT : t ≤ T) :
    hashLoop X n fuel s i hashed = some (.ok out) := by
  induction fuel generalizing t s i hashed with
  | zero => omega
  | succ fuel ih =>
    unfold hashLoop
    by_cases hi : i < n
    · have htT' := inv_lt hinv hi hT ho
      rw [if_pos hi]
      obtain ⟨s', h1, h2⟩ := L.read m (2 * t) s hs (fun l hl => by have := hlim l hl; omega)
      rw [h1]
      simp only [elt_eq]
      rw [show (65536 / 12289 * 12289 : Nat) = 61445 from rfl, show 256 * st m (2 * t) + st m (2 * t + 1) = word16 (st m) t from rfl]
      by_cases hw : word16 (st m) t < 61445
      · rw [if_pos hw]
        exact ih (t + 1) s' _ _ h2 (inv_accept hinv hi hw) (by omega) (by omega)
      · rw [if_neg hw]
        exact ih (t + 1) s' _ _ h2 (inv_reject hinv hw) (by omega) (by omega)
    · rw [if_neg hi]
      obtain ⟨k1, k2⟩ := inv_done hinv hi
      rw [isPoint_unique ⟨t, k1, k2⟩ ⟨T, hT, ho⟩]

/-- `hash_to_point` returns `out` (for some number of iterations) exactly when the seed is accepted and `out` is the point of the seed's stream, found within the limit. -/
theorem hashToPoint_iff (L : Lawful X ok st lim) (n : Nat) (message salt : Bytes) (out : List Nat) :
    (∃ fuel, hashToPoint X n message salt fuel = some (.ok out)) ↔
      ok (X.saltMap salt ++ message) ∧ ∃ T, accepted (st (X.saltMap salt ++ message)) T = out ∧ out.length = n ∧ ∀ l, lim = some l → 2 * T ≤ l := by
  by_cases hok : ok (X.saltMap salt ++ message)
  · obtain ⟨s, h1, h2⟩ := L.seed _ _ hok
    unfold hashToPoint
    rw [h1]
    dsimp only
    constructor
    · rintro ⟨fuel, h⟩
      obtain ⟨T, k1, k2, k3, k4⟩ := hashLoop_sound L _ n fuel 0 s 0 _ out h2 (inv_zero _ _) h
      refine ⟨hok, T, k1, k2, fun l hl => ?_⟩
      by_cases e : 0 < T
      · exact k3 l hl e
      · omega
    · rintro ⟨_, T, k1, k2, k3⟩
      exact ⟨T + 1, hashLoop_complete L _ n T out k1 k2 k3 (T + 1) 0 s 0 _ h2 (inv_zero _ _) (by omega) (Nat.zero_le _)⟩
  · obtain ⟨e, he⟩ := L.refuse _ _ hok
    constructor
    · rintro ⟨fuel, h⟩
      unfold hashToPoint at h
      rw [he] at h
      cases h
    · exact fun h => absurd h.1 hok

/-- The result does not depend on the amount of fuel that was enough. -/
theorem hashToPoint_det (L : Lawful X ok st lim) (n : Nat) (message salt : Bytes) (f f' : Nat) (out out' : List Nat)
    (h : hashToPoint X n message salt f = some (.ok out)) (h' : hashToPoint X n message salt f' = some (.ok out')) : out = out' := by
  obtain ⟨_, T, k1, k2, _⟩ := (hashToPoint_iff L n message salt out).1 ⟨f, h⟩
  obtain ⟨_, T', k1', k2', _⟩ := (hashToPoint_iff L n message salt out').1 ⟨f', h'⟩
  exact isPoint_unique ⟨T, k1, k2⟩ ⟨T', k1', k2'⟩

/-! ## The XOF classes are lawful -/

/-- Byte `k` of SHAKE256 of `m`. -/
def shakeByte (m : Bytes) (k : Nat) : Nat := Keccak.Spec.spongeByte Keccak.Spec.F 136 0x1f m k

theorem shake256_two (m : Bytes) (k : Nat) : Keccak.Spec.spongeOut Keccak.F1600 136 0x1f m k 2 = [shakeByte m k, shakeByte m (k + 1)] := by
  rw [Keccak.spongeOut_F Keccak.F1600_spec Keccak.F1600_length]; rfl

def shakeLawful : Lawful shakeXof (fun _ => True) shakeByte none where
  at' m k s := s = Keccak.xofAt Keccak.F1600 136 0x1f m k
  seed a b _ := by
    refine ⟨_, rfl, ?_⟩
    show Keccak.pad Keccak.F1600 136 0x1f (Keccak.absorb Keccak.F1600 136 (Keccak.absorb Keccak.F1600 136 Keccak.Ctx.new a) b) = _
    rw [Keccak.absorb_append _ _ _ (by decide), Keccak.pad_xofAt (by decide) (by decide)]
  refuse a b h := absurd trivial h
  read m k s h _ := by
    refine ⟨Keccak.xofAt Keccak.F1600 136 0x1f m (k + 2), ?_, rfl⟩
    subst h
    show Except.ok (Keccak.squeeze Keccak.F1600 136 _ 2) = _
    rw [Keccak.squeeze_xofAt (by decide) (by decide) Keccak.F1600_length, shake256_two]
  readErr m k s L _ h := by cases h

theorem injectAll_two (maxBuf : Nat) (c : Prng) (a b : Bytes) : injectAll maxBuf c [a, b] = (do let c ← c.inject maxBuf a; c.inject maxBuf b) := by
  unfold injectAll
  cases h : c.inject maxBuf a with
  | error e => rfl
  | ok c' =>
    show injectAll maxBuf c' [b] = c'.inject maxBuf b
    unfold injectAll
    cases h : c'.inject maxBuf b with
    | error e => rfl
    | ok c'' => rfl

theorem streamOut_two (H : Bytes → Bytes) (m : Bytes) (k : Nat) : streamOut H m k 2 = [streamByte H m k, streamByte H m (k + 1)] := rfl

theorem prng_seed (H : Bytes → Bytes) (maxBuf : Nat) (a b : Bytes) (h : (a ++ b).length ≤ maxBuf) :
    ∃ s, (do Prng.flip H (← Prng.inject maxBuf (← Prng.inject maxBuf (Prng.new maxBuf) a) b) : Except Err Prng) = .ok s ∧ At H (a ++ b) 0 s := by
  obtain ⟨c, c', h1, h2, h3⟩ := flip_at H maxBuf [a, b] (by simpa using h)
  refine ⟨c', ?_, by simpa using h3⟩
  rw [injectAll_two] at h1
  cases h4 : (Prng.new maxBuf).inject maxBuf a with
  | error e => rw [h4] at h1; cases h1
  | ok c1 =>
    rw [h4] at h1
    show (do Prng.flip H (← Prng.inject maxBuf c1 b) : Except Err Prng) = _
    change c1.inject maxBuf b = .ok c at h1
    rw [h1]; exact h2

theorem prng_refuse (H : Bytes → Bytes) (maxBuf : Nat) (a b : Bytes) (h : ¬ (a ++ b).length ≤ maxBuf) :
    ∃ e, (do Prng.flip H (← Prng.inject maxBuf (← Prng.inject maxBuf (Prng.new maxBuf) a) b) : Except Err Prng) = .error e := by
  have h1 := (inject_spec maxBuf [a, b] (Prng.new maxBuf) (by simp [Prng.new]) (Nat.zero_le _) rfl).2 (by simp [Prng.new] at h ⊢; omega)
  refine ⟨.valueError, ?_⟩
  rw [injectAll_two] at h1
  cases h4 : (Prng.new maxBuf).inject maxBuf a with
  | error e => rw [h4] at h1; cases h1; rfl
  | ok c1 =>
    rw [h4] at h1
    show (do Prng.flip H (← Prng.inject maxBuf c1 b) : Except Err Prng) = _
    change c1.inject maxBuf b = .error .valueError at h1
    rw [h1]; rfl

def keccakLawful (H : Bytes → Bytes) (hH : ∀ x, (H x).length = 32) : Lawful (keccakPrng H) (fun m => m.length ≤ 4096) (streamByte H) (some streamEnd) where
  at' m k s := At H m k s
  seed a b h := prng_seed H 4096 a b h
  refuse a b h := prng_refuse H 4096 a b h
  read m k s h hl := by
    obtain ⟨c', h1, h2⟩ := (extract_at hH k 2 s h).1 (hl _ rfl)
    exact ⟨c', h1, h2⟩
  readErr m k s L h hL hl := by
    cases hL
    exact ⟨_, (extract_at hH k 2 s h).2 hl⟩

def blake2sLawful (B : Bytes → Bytes) (hB : ∀ x, (B x).length = 32) : Lawful (blake2sPrng B) (fun m => m.length ≤ 1024) (streamByte B) (some streamEnd) where
  at' m k s := At B m k s
  seed a b h := prng_seed B 1024 a b h
  refuse a b h := prng_refuse B 1024 a b h
  read m k s h hl := by
    obtain ⟨c', h1, h2⟩ := (extract_at hB k 2 s h).1 (hl _ rfl)
    exact ⟨c', h1, h2⟩
  readErr m k s L h hL hl := by
    cases hL
    exact ⟨_, (extract_at hB k 2 s h).2 hl⟩

end Verif.Hash
