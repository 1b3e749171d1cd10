import Verif.Hash.SolLemmas

/-! # Properties C22, C23, C24, C45

`H` is Keccak-256 (Python `Crypto.Hash.keccak`, EVM `keccak256`), `B` is Blake2s-256: any functions returning 32 bytes.  "Returns `out`" means that some finite number of
loop iterations suffices and the result is `out`; `IsPoint` (Hash/Spec.lean) is the specification. -/

namespace Verif.Hash

attribute [local irreducible] Keccak.F1600

/-- `hash_to_point(n, message, salt, xof)` returns `out`. -/
def Returns {S : Type} (X : Xof S) (n : Nat) (message salt : Bytes) (out : List Nat) : Prop := ∃ fuel, hashToPoint X n message salt fuel = some (.ok out)

/-- It raises. -/
def Raises {S : Type} (X : Xof S) (n : Nat) (message salt : Bytes) : Prop := ∃ fuel e, hashToPoint X n message salt fuel = some (.error e)

/-! ## C22 -/

/-- What a point is: exactly `n` coefficients in `[0, q)`, the first `n` of the accepted words, whatever longer stretch of the stream one looks at; and it is unique. -/
theorem C22_point {st : Nat → Nat} {n : Nat} {out : List Nat} (h : IsPoint st n out) :
    out.length = n ∧ (∀ x ∈ out, x < 12289) ∧ (∀ T, n ≤ (accepted st T).length → out = (accepted st T).take n) ∧ ∀ out', IsPoint st n out' → out' = out := by
  obtain ⟨T, h1, h2⟩ := h
  refine ⟨h2, h1 ▸ accepted_lt st T, fun T' hT' => ?_, fun out' h' => isPoint_unique h' ⟨T, h1, h2⟩⟩
  rcases Nat.le_total T T' with hle | hle
  · have := accepted_prefix st T T' hle
    rw [h1] at this
    rw [← h2]
    exact List.prefix_iff_eq_take.mp this
  · have := accepted_prefix st T' T hle
    have heq := this.eq_of_length_le (by rw [h1, h2]; exact hT')
    rw [heq, h1, List.take_of_length_le (by omega)]

/-- C22 with SHAKE256: `hash_to_point` returns exactly the point of the SHAKE256 stream of `salt ‖ message` and never raises. -/
theorem C22_shake (n : Nat) (message salt : Bytes) (out : List Nat) : Returns shakeXof n message salt out ↔ IsPoint (shakeByte (salt ++ message)) n out := by
  unfold Returns
  rw [hashToPoint_iff shakeLawful]
  constructor
  · rintro ⟨_, T, h1, h2, _⟩; exact ⟨T, h1, h2⟩
  · rintro ⟨T, h1, h2⟩; exact ⟨trivial, T, h1, h2, fun _ h => by cases h⟩

theorem hashLoop_no_error {S : Type} {X : Xof S} {ok : Bytes → Prop} {st : Bytes → Nat → Nat} (L : Lawful X ok st none) (m : Bytes) (n fuel t : Nat) (s : S)
    (i : Nat) (hashed : List Nat) (hs : L.at' m t s) (e : Err) : hashLoop X n fuel s i hashed ≠ some (.error e) := by
  induction fuel generalizing t s i hashed with
  | zero => simp [hashLoop]
  | succ fuel ih =>
    unfold hashLoop
    by_cases hi : i < n
    · rw [if_pos hi]
      obtain ⟨s', h1, h2⟩ := L.read m t s hs (fun _ h => by cases h)
      rw [h1]
      dsimp only
      split
      · exact ih _ _ _ _ h2
      · exact ih _ _ _ _ h2
    · rw [if_neg hi]; simp

/-- C22 with SHAKE256: it never raises. -/
theorem C22_shake_total (n : Nat) (message salt : Bytes) : ¬ Raises shakeXof n message salt := by
  rintro ⟨fuel, e, h⟩
  obtain ⟨s, h1, h2⟩ := shakeLawful.seed (shakeXof.saltMap salt) message trivial
  unfold hashToPoint at h
  rw [h1] at h
  exact hashLoop_no_error shakeLawful _ n fuel 0 s 0 _ h2 e h

/-- C22 with the Keccak PRNG (the default): it returns `out` exactly when `salt ‖ message` has at most 4096 bytes and `out` is the point of the stream
`H(H(salt‖message) ‖ be64 ctr)`, found within the `2^64` blocks of the counter. -/
theorem C22_keccak (H : Bytes → Bytes) (hH : ∀ x, (H x).length = 32) (n : Nat) (message salt : Bytes) (out : List Nat) :
    Returns (keccakPrng H) n message salt out ↔
      salt.length + message.length ≤ 4096 ∧ ∃ T, accepted (streamByte H (salt ++ message)) T = out ∧ out.length = n ∧ 2 * T ≤ 32 * 2 ^ 64 := by
  unfold Returns
  rw [hashToPoint_iff (keccakLawful H hH)]
  show (salt ++ message).length ≤ 4096 ∧ _ ↔ _
  rw [List.length_append]
  refine and_congr_right fun _ => ⟨?_, ?_⟩
  · rintro ⟨T, h1, h2, h3⟩; exact ⟨T, h1, h2, h3 _ rfl⟩
  · rintro ⟨T, h1, h2, h3⟩; exact ⟨T, h1, h2, fun l hl => by cases hl; exact h3⟩

/-- C22 with the Blake2s PRNG: the salt is replaced by its digest, and the buffer has 1024 bytes. -/
theorem C22_blake2s (B : Bytes → Bytes) (hB : ∀ x, (B x).length = 32) (n : Nat) (message salt : Bytes) (out : List Nat) :
    Returns (blake2sPrng B) n message salt out ↔
      32 + message.length ≤ 1024 ∧ ∃ T, accepted (streamByte B (B salt ++ message)) T = out ∧ out.length = n ∧ 2 * T ≤ 32 * 2 ^ 64 := by
  unfold Returns
  rw [hashToPoint_iff (blake2sLawful B hB)]
  show (B salt ++ message).length ≤ 1024 ∧ _ ↔ _
  rw [List.length_append, hB]
  refine and_congr_right fun _ => ⟨?_, ?_⟩
  · rintro ⟨T, h1, h2, h3⟩; exact ⟨T, h1, h2, h3 _ rfl⟩
  · rintro ⟨T, h1, h2, h3⟩; exact ⟨T, h1, h2, fun l hl => by cases hl; exact h3⟩

/-- A message of more than 4096 − |salt| bytes (4056 for a 40-byte salt) makes the default hash raise, whatever the message. -/
theorem C22_keccak_long (H : Bytes → Bytes) (hH : ∀ x, (H x).length = 32) (n : Nat) (message salt : Bytes) (h : 4096 < salt.length + message.length) :
    Raises (keccakPrng H) n message salt := by
  obtain ⟨e, he⟩ := (keccakLawful H hH).refuse salt message (by simpa using by omega)
  refine ⟨0, e, ?_⟩
  unfold hashToPoint
  change (do (keccakPrng H).flip (← (keccakPrng H).update (← (keccakPrng H).update (keccakPrng H).new ((keccakPrng H).saltMap salt)) message) : Except Err Prng) = _ at he
  rw [he]

/-- The specification on a small stream: words 0x0102, 0xF005 (accepted: 61445 = 0xF005 is not below 5q, so rejected), 0x3001 (= q, reduces to 0), 0x0003. -/
example : IsPoint (fun k => [1, 2, 0xF0, 5, 0x30, 1, 0, 3].getD k 0) 3 [258, 0, 3] := ⟨4, by decide⟩

/-! ## C23 -/

/-- C23: the point depends only on `salt ‖ message` (all classes that do not pre-hash the salt). -/
theorem C23_concat {S : Type} {X : Xof S} {ok : Bytes → Prop} {st : Bytes → Nat → Nat} {lim : Option Nat} (L : Lawful X ok st lim) (hX : X.saltMap = id)
    (n : Nat) (m s m' s' : Bytes) (h : s ++ m = s' ++ m') (out : List Nat) : Returns X n m s out ↔ Returns X n m' s' out := by
  unfold Returns
  rw [hashToPoint_iff L, hashToPoint_iff L, hX]
  simp only [id, h]

/-- C23: for salts of one fixed length (40 in every signature), different pairs give different hash inputs. -/
theorem C23_injective (m s m' s' : Bytes) (hl : s.length = s'.length) (h : s ++ m = s' ++ m') : s = s' ∧ m = m' := List.append_inj h hl

/-- The length condition is needed: with salts of different lengths two pairs can collide, and then they hash to the same point. -/
theorem C23_ambiguous (H : Bytes → Bytes) (hH : ∀ x, (H x).length = 32) (n : Nat) (out : List Nat) :
    Returns (keccakPrng H) n [2] [1] out ↔ Returns (keccakPrng H) n [] [1, 2] out :=
  C23_concat (keccakLawful H hH) rfl n _ _ _ _ rfl out

example : ([7, 8] : Bytes).length = ([7, 9] : Bytes).length ∧ ([7, 8] : Bytes) ++ [1] ≠ [7, 9] ++ [1] := by decide

/-! ## C24 -/

/-- `hashToPointEVM(salt, msgHash)` returns `out`. -/
def EvmReturns (H : Bytes → Bytes) (salt msg : Bytes) (out : List Nat) : Prop := ∃ fuel, Sol.hashToPointEVM H salt msg fuel = some out
/-- `hashToPointNIST(salt, msgHash)` returns `out`. -/
def NistReturns (salt msg : Bytes) (out : List Nat) : Prop := ∃ fuel, Sol.hashToPointNIST salt msg fuel = some out
/-- `hashToPointTETRATION(salt, msgHash)` returns `out`. -/
def TetrReturns (H : Bytes → Bytes) (salt msg : Bytes) (out : List Nat) : Prop := ∃ fuel, Sol.hashToPointTETRATION H salt msg fuel = some out

/-- C24, Keccak: if the Python hash returns a point then the contract returns the same point. -/
theorem C24_evm (H : Bytes → Bytes) (hH : ∀ x, (H x).length = 32) (hb : ∀ x, IsBytes (H x)) (salt message : Bytes) (out : List Nat)
    (h : Returns (keccakPrng H) 512 message salt out) : EvmReturns H salt message out := by
  obtain ⟨_, T, h1, h2, _⟩ := (C22_keccak H hH 512 message salt out).1 h
  exact (evm_iff hH hb salt message out).2 ⟨T, h1, h2⟩

/-- C24, Keccak: if the contract returns a point then the Python hash returns the same point, unless the message overflows Python's 4096-byte buffer or the point needs
more than `2^64` hash blocks (where Python raises and the contract's counter wraps around). -/
theorem C24_evm_conv (H : Bytes → Bytes) (hH : ∀ x, (H x).length = 32) (hb : ∀ x, IsBytes (H x)) (salt message : Bytes) (out : List Nat)
    (h : EvmReturns H salt message out) (hl : salt.length + message.length ≤ 4096) :
    Returns (keccakPrng H) 512 message salt out ∨ ∀ T, 2 * T ≤ 32 * 2 ^ 64 → (accepted (streamByte H (salt ++ message)) T).length < 512 := by
  obtain ⟨T, h1, h2⟩ := (evm_iff hH hb salt message out).1 h
  by_cases hc : ∃ T, 2 * T ≤ 32 * 2 ^ 64 ∧ 512 ≤ (accepted (streamByte H (salt ++ message)) T).length
  · obtain ⟨T', h3, h4⟩ := hc
    left
    refine (C22_keccak H hH 512 message salt out).2 ⟨hl, ?_⟩
    by_cases hle : T ≤ T'
    · exact ⟨T, h1, h2, by omega⟩
    · have hp := accepted_prefix (streamByte H (salt ++ message)) T' T (by omega)
      rw [h1] at hp
      exact ⟨T', hp.eq_of_length_le (by omega), h2, h3⟩
  · right
    intro T' hT'
    exact Nat.lt_of_not_le fun hx => hc ⟨T', hT', hx⟩

/-- C24, SHAKE256: the Python hash with SHAKE and `hashToPointNIST` return the same points for every salt and message. -/
theorem C24_nist (salt message : Bytes) (hs : IsBytes salt) (hm : IsBytes message) (out : List Nat) :
    Returns shakeXof 512 message salt out ↔ NistReturns salt message out := by
  rw [C22_shake]
  exact (nist_iff salt message hs hm out).symm

/-- `hashToPointTETRATION(salt, msg)` is the Python hash with `KeccaXOF` with salt and message exchanged. -/
theorem C24_tetration (H : Bytes → Bytes) (hH : ∀ x, (H x).length = 32) (hb : ∀ x, IsBytes (H x)) (salt message : Bytes) (out : List Nat) :
    TetrReturns H salt message out ↔ Returns (keccaXof H) 512 salt message out := by
  unfold TetrReturns Returns
  rw [tetr_iff hH hb, hashToPoint_iff (keccaXofLawful H hH hb)]
  constructor
  · rintro ⟨T, h1, h2⟩; exact ⟨trivial, T, h1, h2, fun _ h => by cases h⟩
  · rintro ⟨_, T, h1, h2, _⟩; exact ⟨T, h1, h2⟩

/-- The contract's three hashes return reduced vectors of 512 coefficients. -/
theorem C24_evm_shape (H : Bytes → Bytes) (hH : ∀ x, (H x).length = 32) (hb : ∀ x, IsBytes (H x)) (salt message : Bytes) (out : List Nat)
    (h : EvmReturns H salt message out) : out.length = 512 ∧ ∀ x ∈ out, x < 12289 := by
  have := C22_point ((evm_iff hH hb salt message out).1 h)
  exact ⟨this.1, this.2.1⟩

theorem C24_nist_shape (salt message : Bytes) (hs : IsBytes salt) (hm : IsBytes message) (out : List Nat) (h : NistReturns salt message out) :
    out.length = 512 ∧ ∀ x ∈ out, x < 12289 := by
  have := C22_point ((nist_iff salt message hs hm out).1 h)
  exact ⟨this.1, this.2.1⟩

/-- A hash for which everything returns (non-vacuity): the constant hash `1, 1, …, 1`, whose words are all `0x0101 = 257`. -/
example : EvmReturns (fun _ => List.replicate 32 1) [5] [6] (List.replicate 512 257) := ⟨33, by decide +kernel⟩
example : Returns (keccakPrng fun _ => List.replicate 32 1) 4 [6] [5] [257, 257, 257, 257] := ⟨5, by decide +kernel⟩
example : TetrReturns (fun _ => List.replicate 32 1) [5] [6] (List.replicate 512 257) := ⟨513, by decide +kernel⟩

/-! ## C45 -/

/-- `k` successive two-byte reads of `KeccaXOF`. -/
def kReads (H : Bytes → Bytes) : Nat → KXof → Except Err (KXof × Bytes)
  | 0, c => .ok (c, [])
  | k + 1, c => do
    let (c, a) ← c.read H 2
    let (c, b) ← kReads H k c
    return (c, a ++ b)

/-- `KeccaXOF` after updates with the given chunks. -/
def kUpdated (chunks : List Bytes) : KXof := ⟨chunks, none, []⟩

theorem C45_update (c : KXof) (chunks : List Bytes) (d : Bytes) (h : c = kUpdated chunks) : c.update d = .ok (kUpdated (chunks ++ [d])) := by
  subst h; rfl

/-- C45: after updates with any chunks, `k` reads of two bytes return the first `2k` bytes of the stream `H(m) ‖ H(H(m)) ‖ …` of the concatenation `m`; the stream is
determined by `m` alone.  (First half of C45; the second half, that streams of different inputs are not shifted copies of one another, is refuted below.) -/
theorem C45_stream_partial (H : Bytes → Bytes) (hH : ∀ x, (H x).length = 32) (hb : ∀ x, IsBytes (H x)) (chunks : List Bytes) (k : Nat) :
    ∃ c, kReads H k (kUpdated chunks) = .ok (c, tetrOut H chunks.flatten 0 (2 * k)) := by
  have key : ∀ k a c, KPos H chunks.flatten a c → ∃ c', kReads H k c = .ok (c', tetrOut H chunks.flatten a (2 * k)) := by
    intro k
    induction k with
    | zero => intro a c _; exact ⟨c, rfl⟩
    | succ k ih =>
      intro a c hc
      obtain ⟨c1, h1, h2⟩ := kread_spec hH hb chunks.flatten a c hc
      obtain ⟨c2, h3⟩ := ih (a + 2) c1 h2
      refine ⟨c2, ?_⟩
      unfold kReads
      rw [h1]
      show (do let (c, b) ← kReads H k c1; return (c, [tetrByte H chunks.flatten a, tetrByte H chunks.flatten (a + 1)] ++ b)) = _
      rw [h3, show 2 * (k + 1) = 2 + 2 * k by omega, tetrOut_add]
      rfl
  exact key k 0 _ (Or.inl ⟨rfl, rfl, rfl⟩)

theorem repeat_comm (H : Bytes → Bytes) (m : Bytes) (k : Nat) : k.repeat H (H m) = (k + 1).repeat H m := by
  induction k with
  | zero => rfl
  | succ k ih => show H (k.repeat H (H m)) = H ((k + 1).repeat H m); rw [ih]

/-- C45, second part, false of the code: the stream of `H(m)` is the stream of `m` shifted by one block, for every `m`. -/
theorem C45_shifted (H : Bytes → Bytes) (m : Bytes) (k : Nat) : tetrByte H (H m) k = tetrByte H m (k + 32) := by
  unfold tetrByte
  rw [repeat_comm, show (k + 32) / 32 = k / 32 + 1 by omega, show (k + 32) % 32 = k % 32 by omega]

/-- There are always two different inputs whose streams are shifted copies of each other. -/
theorem C45_not_separated (H : Bytes → Bytes) (hH : ∀ x, (H x).length = 32) : ∃ m m' : Bytes, m ≠ m' ∧ ∀ k, tetrByte H m' k = tetrByte H m (k + 32) := by
  refine ⟨[], H [], fun h => ?_, C45_shifted H []⟩
  have := hH []
  rw [← h] at this
  cases this

/-- The counter-mode PRNG does not have this defect for its first block: the streams of `m` and `H m` are computed from different hash inputs. -/
theorem C45_prng_separated (H : Bytes → Bytes) (hH : ∀ x, (H x).length = 32) (m : Bytes) (i j : Nat) (hm : H m ≠ H (H m)) :
    H m ++ ctrBytes i ≠ H (H m) ++ ctrBytes j := fun h => hm (List.append_inj h (by rw [hH, hH])).1

/-- C45, misuse: `update` after a read raises. -/
theorem C45_update_after_read (H : Bytes → Bytes) (hH : ∀ x, (H x).length = 32) (hb : ∀ x, IsBytes (H x)) (chunks : List Bytes) (c : KXof) (out d : Bytes)
    (h : (kUpdated chunks).read H 2 = .ok (c, out)) : c.update d = .error .valueError := by
  obtain ⟨c', h1, h2⟩ := kread_spec hH hb chunks.flatten 0 (kUpdated chunks) (Or.inl ⟨rfl, rfl, rfl⟩)
  rw [h] at h1; cases h1
  rcases h2 with ⟨h2, _⟩ | ⟨b, hb⟩
  · omega
  · unfold KXof.update; rw [hb.last]; rfl

/-- Reads of another length do not return a slice: one byte comes back as two, three bytes raise unless the first is zero, zero bytes raise. -/
example : ((kUpdated [[1]]).read (fun _ => List.replicate 32 9) 1).map (·.2) = .ok [0, 9] := by decide +kernel
example : ((kUpdated [[1]]).read (fun _ => List.replicate 32 9) 3).map (·.2) = .error .valueError := by decide +kernel
example : ((kUpdated [[1]]).read (fun _ => List.replicate 32 9) 0).map (·.2) = .error .valueError := by decide +kernel

end Verif.Hash
