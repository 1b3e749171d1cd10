import Verif.SolSig.Lemmas
import Verif.Codec.Props
/-
Properties C35 and C60: the contract's signature parsing (ZKNOX_falcon_encodings.sol) against encoding.py,
and the NIST KAT signed-message format.
-/
namespace Verif.SolSig
open Verif Codec Encoding.Spec

/-- **Exact acceptance of `_decompress_sig`**: it returns `x` iff the memory from `offset` starts with 512 code words
(sign bit, 7 low bits, unary high part) of absolute value at most 2047 — including a *negative zero* —, they occupy fewer than 666
bytes, and `x` lists `m` for a positive and `q - m` for a negative sign. -/
theorem decompressSig_ok_iff (mem : Bytes) (hm : IsBytes mem) (offset : Nat) (x : List Nat) :
    decompressSig mem offset = .ok x ↔
      ∃ cs : List (Bool × Nat), cs.length = 512 ∧ (∀ c ∈ cs, c.2 ≤ 2047) ∧ x = cs.map val ∧
        seg mem (8 * offset) (cs.flatMap cw).length = cs.flatMap cw ∧ ((cs.flatMap cw).length + 7) / 8 < 666 := by
  have key := sigLoop_ok_iff mem hm 512 0 0 offset (8 * offset) (by omega) (by decide) (by simpa [seg] using accIs_nil)
  unfold decompressSig
  constructor
  · intro h
    split at h
    · cases h
    · rename_i xs v hs
      split at h
      · cases h
      · rename_i hv
        cases h
        obtain ⟨cs, h1, h2, h3, h4, h5⟩ := (key x v).1 hs
        exact ⟨cs, h1, h2, h3, h4, by omega⟩
  · rintro ⟨cs, h1, h2, h3, h4, h5⟩
    rw [(key x _).2 ⟨cs, h1, h2, h3, h4, rfl⟩]
    simp only
    rw [if_neg (by omega)]

theorem cw_codeword (c : Int) : cw (decide (c < 0), c.natAbs) = codeword c := by
  simp [cw, codeword]

theorem cw_code (v : List Int) : (v.map fun c : Int => (decide (c < 0), c.natAbs)).flatMap cw = code v := by
  induction v with
  | nil => rfl
  | cons c v ih => rw [List.map_cons, List.flatMap_cons, ih, cw_codeword, code]

theorem val_mod (c : Int) (h : c.natAbs ≤ 2047) : val (decide (c < 0), c.natAbs) = (c % 12289).toNat := by
  unfold val
  by_cases hc : c < 0 <;> simp [hc] <;> omega

theorem isBytes_append {a b : Bytes} (ha : IsBytes a) (hb : IsBytes b) : IsBytes (a ++ b) := by
  intro c hc
  rcases List.mem_append.1 hc with h | h
  · exact ha c h
  · exact hb c h

/-- **C35, first half**: whatever Python's `decompress` accepts with coefficients of absolute value at most 2047 (and fewer than
666 bytes) the contract accepts too, with the same coefficients mod q, wherever the signature lies in memory and
whatever follows it. -/
theorem contract_accepts_python (pre y ext : Bytes) (hp : IsBytes pre) (hy : IsBytes y) (he : IsBytes ext) (slen : Nat) (hs : slen < 666)
    (v : List Int) (h : Encoding.decompress y slen 512 = .ok (some v)) (hv : ∀ c ∈ v, c.natAbs ≤ 2047) :
    decompressSig (pre ++ y ++ ext) pre.length = .ok (v.map fun c => (c % 12289).toNat) := by
  obtain ⟨h1, h2, h3⟩ := (Encoding.decompress_accepts_iff y slen 512 (by decide) v).1 h
  have hlen := h3.length_le
  rw [bytesBits_length] at hlen
  rw [decompressSig_ok_iff _ (isBytes_append (isBytes_append hp hy) he)]
  refine ⟨v.map fun c : Int => (decide (c < 0), c.natAbs), by simpa using h2, ?_, ?_, ?_, ?_⟩
  · intro c hc
    rw [List.mem_map] at hc
    obtain ⟨d, hd, rfl⟩ := hc
    exact hv d hd
  · rw [List.map_map]
    apply List.map_congr_left
    intro c hc
    exact (val_mod c (hv c hc)).symm
  · rw [cw_code, seg_prefix_iff _ _ _ (by simp; omega) (by simp), List.append_assoc, List.drop_left, bytesBits_append]
    exact h3.trans (List.prefix_append _ _)
  · rw [cw_code]; omega

/-- in particular the honest encoder's output is read back -/
theorem contract_reads_compress (pre y ext : Bytes) (hp : IsBytes pre) (he : IsBytes ext) (slen : Nat) (hs : slen < 666)
    (v : List Int) (hl : v.length = 512) (h : Encoding.compress v slen = some y) (hv : ∀ c ∈ v, c.natAbs ≤ 2047) :
    decompressSig (pre ++ y ++ ext) pre.length = .ok (v.map fun c => (c % 12289).toNat) := by
  have hne : v ≠ [] := by intro h0; rw [h0] at hl; simp at hl
  obtain ⟨h1, h2, h3⟩ := Encoding.decompress_compress v slen y hne h
  rw [hl] at h3
  exact contract_accepts_python pre y ext hp h2 he slen hs v h3 hv

/-- non-vacuity: a 512-coefficient vector that fits in 625 bytes and satisfies all the hypotheses -/
example : ∃ y, Encoding.compress (List.replicate 512 (-5)) 625 = some y ∧
    decompressSig (y ++ []) 0 = .ok (List.replicate 512 12284) := by
  cases h : Encoding.compress (List.replicate 512 (-5)) 625 with
  | none =>
    exfalso
    rw [(Encoding.compress_fits_iff _ _).1] at h
    have : ∀ k, codeLength (List.replicate k (-5)) = 9 * k := by
      intro k; induction k with
      | zero => rfl
      | succ k ih => rw [List.replicate_succ, codeLength, ih]; simp; omega
    rw [this] at h; omega
  | some y =>
    refine ⟨y, rfl, ?_⟩
    have := contract_reads_compress [] y [] (by intro b hb; simp at hb) (by intro b hb; simp at hb) 625 (by decide) _ List.length_replicate h
      (by intro c hc; rw [(List.mem_replicate.1 hc).2]; decide)
    rw [List.map_replicate] at this
    exact this

/-- **C35, negation of the second half**: the contract accepts a string that Python rejects — "minus zero" — and
returns the unreduced coefficient `q` for it. -/
theorem contract_accepts_minus_zero : ∃ y : Bytes, IsBytes y ∧ y.length = 576 ∧
    decompressSig y 0 = .ok (12289 :: List.replicate 511 0) ∧
    ∀ slen v, Encoding.decompress y slen 512 ≠ .ok (some v) := by
  let cs : List (Bool × Nat) := (true, 0) :: List.replicate 511 (false, 0)
  have hlen : (cs.flatMap cw).length = 8 * 576 := by decide +kernel
  have hb := bytesBits_packBits 576 _ hlen
  refine ⟨packBits (cs.flatMap cw), packBits_isBytes _, by rw [packBits_length, hlen], ?_, ?_⟩
  · rw [decompressSig_ok_iff _ (packBits_isBytes _)]
    refine ⟨cs, by decide +kernel, by decide +kernel, by decide +kernel, ?_, by rw [hlen]; decide⟩
    rw [show 8 * 0 = 8 * 0 from rfl, seg_prefix_iff _ _ _ (by rw [packBits_length, hlen]; decide) (by omega), List.drop_zero, hb]
    exact List.prefix_refl _
  · intro slen v
    apply Encoding.decompress_rejects_minus_zero (packBits (cs.flatMap cw)) slen 512 [] ((List.replicate 511 (false, 0)).flatMap cw) (by decide)
    rw [hb]
    rfl

theorem flatMap_cw_ends (cs : List (Bool × Nat)) (h : cs ≠ []) : ∃ r, cs.flatMap cw = r ++ [true] := by
  obtain ⟨l, c, rfl⟩ : ∃ l c, cs = l ++ [c] := ⟨_, _, (List.dropLast_concat_getLast h).symm⟩
  exact ⟨l.flatMap cw ++ (c.1 :: natBits 7 (c.2 % 128) ++ List.replicate (c.2 / 128) false), by simp [cw]⟩

/-- **C35, second half (partial)**: with nothing else in memory after the signature, whatever the contract accepts without
producing the value `q` (no negative zero) is accepted by Python with the same coefficients.  Missing for the full property:
negative zero, see `contract_accepts_minus_zero`, and foreign memory, see `contract_reads_past_end`. -/
theorem python_accepts_contract_partial (pre y : Bytes) (hp : IsBytes pre) (hy : IsBytes y) (slen : Nat) (hs : y.length ≤ slen) (x : List Nat)
    (h : decompressSig (pre ++ y) pre.length = .ok x) (hx : 12289 ∉ x) :
    ∃ v, Encoding.decompress y slen 512 = .ok (some v) ∧ x = v.map fun c => (c % 12289).toNat := by
  obtain ⟨cs, h1, h2, h3, h4, h5⟩ := (decompressSig_ok_iff _ (isBytes_append hp hy) _ _).1 h
  -- the code lies inside y, because it ends in a one bit and memory past the end reads as zero
  have hne : cs ≠ [] := by intro h0; rw [h0] at h1; simp at h1
  have hin : (cs.flatMap cw).length ≤ 8 * y.length := by
    obtain ⟨r, hr⟩ := flatMap_cw_ends cs hne
    have hlast : bitAt (pre ++ y) (8 * pre.length + r.length) = true := by
      have e := h4
      rw [hr, List.length_append, seg_add] at e
      have := (List.append_inj e (by simp)).2
      simpa [seg] using this
    rw [hr, List.length_append, List.length_singleton]
    false_or_by_contra
    rename_i hc
    have hd : (pre ++ y).length ≤ (8 * pre.length + r.length) / 8 := by simp; omega
    unfold bitAt rd at hlast
    rw [List.getD_eq_getElem?_getD, List.getElem?_eq_none hd] at hlast
    simp at hlast
  rw [seg_prefix_iff _ _ _ (by rw [List.length_append]; omega) (by rw [List.length_append]; omega), List.drop_left] at h4
  have hnz : ∀ c ∈ cs, c ≠ (true, 0) := by
    rintro c hc rfl
    apply hx
    rw [h3, List.mem_map]
    exact ⟨_, hc, rfl⟩
  let toInt : Bool × Nat → Int := fun c => if c.1 then -(c.2 : Int) else c.2
  have hback : ∀ c ∈ cs, (decide (toInt c < 0), (toInt c).natAbs) = c := by
    rintro ⟨sg, m⟩ hc
    have := hnz _ hc
    cases sg
    · simp [toInt]
    · simp [toInt] at this ⊢; omega
  have hcs : (cs.map toInt).map (fun c : Int => (decide (c < 0), c.natAbs)) = cs := by
    rw [List.map_map]
    conv => rhs; rw [← List.map_id cs]
    apply List.map_congr_left
    intro c hc; exact hback c hc
  refine ⟨cs.map toInt, ?_, ?_⟩
  · rw [Encoding.decompress_accepts_iff _ _ _ (by decide)]
    refine ⟨hs, by simpa using h1, ?_⟩
    rw [← cw_code, hcs]; exact h4
  · rw [h3, List.map_map]
    apply List.map_congr_left
    intro c hc
    have e := hback c hc
    have := val_mod (toInt c) (by
      have h1 := congrArg Prod.snd e
      simp only at h1
      rw [h1]; exact h2 c hc)
    rw [e] at this
    exact this

/-- Finding: the parser does not stop at the end of the buffer.  For every parsable signature, cutting off any number of its
last bytes still parses to the same result when the missing bytes happen to lie in memory after the buffer. -/
theorem contract_reads_past_end (pre y cut : Bytes) (x : List Nat)
    (h : decompressSig (pre ++ (y ++ cut)) pre.length = .ok x) :
    decompressSig ((pre ++ y) ++ cut) pre.length = .ok x := by
  rwa [List.append_assoc]

/-- every failure is a revert -/
theorem decompressSig_error (mem : Bytes) (hm : IsBytes mem) (offset : Nat) (e : Err) (h : decompressSig mem offset = .error e) :
    e = .revert "coeff to big" ∨ e = .revert "too long" := by
  unfold decompressSig at h
  have key : ∀ k acc accLen v p, 8 * v = p + accLen → accLen < 8 → AccIs acc (seg mem p accLen) → ∀ e, sigLoop mem k acc accLen v = .error e →
      e = .revert "coeff to big" := by
    intro k
    induction k with
    | zero => intro acc accLen v p _ _ _ e h; simp [sigLoop] at h
    | succ k ih =>
      intro acc accLen v p hp hl ha e h
      have ha1 := AccIs.push256 ha (rd mem v) (rd_lt mem hm v) (by simp; omega)
      rw [seg_byte, hp, ← seg_add] at ha1
      have ha2 : AccIs (((acc <<< 8) % 2 ^ 256) ||| rd mem v) (seg mem (p + 8) accLen) := by
        have := ha1.drop 8
        rw [Nat.add_comm accLen 8, seg_add, List.drop_append_of_le_length (by simp), List.drop_of_length_le (by simp)] at this
        simpa using this
      simp only [sigLoop] at h
      split at h
      · rename_i e' hu
        cases h
        exact ((unaryLoop_eq mem hm _ accLen (v + 1) _ (p + 8) (by omega) hl ha2).1 _ hu).1
      · rename_i acc' l' v' m' hu
        obtain ⟨p', _, h1, h2, h3⟩ := (unaryLoop_eq mem hm _ accLen (v + 1) _ (p + 8) (by omega) hl ha2).2 _ _ _ _ hu
        split at h
        · rename_i e' hr
          cases h
          exact ih _ _ _ p' h1 h2 h3 _ hr
        · cases h
  split at h
  · rename_i e' hs
    cases h
    left
    exact key 512 0 0 offset (8 * offset) (by omega) (by decide) (by simpa [seg] using accIs_nil) _ hs
  · split at h
    · cases h; right; rfl
    · cases h

/-! ### KAT format -/

theorem mapM_at (sm : Bytes) (o k : Nat) (h : o + k ≤ sm.length) :
    (List.range k).mapM (fun i => at? sm (i + o)) = .ok ((sm.drop o).take k) := by
  induction k with
  | zero => rfl
  | succ k ih =>
    rw [List.range_succ, List.mapM_append, ih (by omega)]
    have hlt : k + o < sm.length := by omega
    have e : (sm.drop o).take (k + 1) = (sm.drop o).take k ++ [sm[k + o]] := by
      rw [List.take_add_one]
      congr 1
      rw [List.getElem?_drop, Nat.add_comm o k, List.getElem?_eq_getElem hlt]
      rfl
    rw [e]
    have ha : at? sm (k + o) = .ok sm[k + o] := by
      unfold at?; rw [List.getElem?_eq_getElem hlt]
    simp only [List.mapM_cons, List.mapM_nil]
    rw [ha]
    rfl

theorem at_append (a b : Bytes) (c : Nat) : at? (a ++ c :: b) a.length = .ok c := by
  unfold at?; simp

theorem at_append' (i : Nat) (a b : Bytes) (c : Nat) (h : i = a.length) : at? (a ++ c :: b) i = .ok c := by
  subst h; exact at_append a b c

/-- **C60**: for every key, salt, message and signature vector, the signed message written by the KAT generator is parsed by the
contract into the same public key, salt, message and signature (mod q), whatever follows it in memory. -/
theorem decompressKAT_roundtrip (h : List Nat) (hhl : h.length = 512) (hq : ∀ c ∈ h, c < 12289)
    (hdr : Nat) (salt comp msg ext : Bytes) (hsl : salt.length = 40) (bs : IsBytes salt) (bm : IsBytes msg) (be : IsBytes ext)
    (v : List Int) (hvl : v.length = 512) (hv : ∀ c ∈ v, c.natAbs ≤ 2047) (hc : Encoding.compress v 625 = some comp)
    (hmsg : msg.length + 666 < 65536) :
    ∃ pkb sm, modqEncode (h.map Int.ofNat) 512 = .ok pkb ∧
      katSignedMessage (hdr :: (salt ++ comp)) msg = .ok sm ∧
      decompressKAT (0x09 :: pkb) sm msg.length ext = .ok (h, v.map (fun c => (c % 12289).toNat), salt, msg) := by
  obtain ⟨pkb, p1, p2⟩ := solDecompress_roundtrip h hhl hq [] (by intro b hb; simp at hb)
  rw [List.append_nil] at p2
  have hne : v ≠ [] := by intro h0; rw [h0] at hvl; simp at hvl
  obtain ⟨cl, cb, _⟩ := Encoding.decompress_compress v 625 comp hne hc
  let slen := 40 + msg.length + 1 + comp.length
  have hsalt : ((hdr :: (salt ++ comp)).drop 1).take 40 = salt := by
    rw [← hsl]; simp
  have hcomp : (hdr :: (salt ++ comp)).drop 41 = comp := by
    rw [show 41 = salt.length + 1 by omega]; simp
  refine ⟨pkb, [slen / 256, slen % 256] ++ salt ++ msg ++ [0x29] ++ comp, p1, ?_, ?_⟩
  · unfold katSignedMessage
    simp only [hsalt, hcomp]
    rw [if_neg (by omega)]
  · unfold decompressKAT
    generalize hsm : [slen / 256, slen % 256] ++ salt ++ msg ++ [0x29] ++ comp = sm
    have hlen : sm.length = 43 + msg.length + 625 := by rw [← hsm]; simp [hsl, cl]; omega
    have e0 : at? sm 0 = .ok (slen / 256) := by rw [← hsm]; rfl
    have e1 : at? sm 1 = .ok (slen % 256) := by rw [← hsm]; rfl
    have e2 : at? (9 :: pkb) 0 = .ok 9 := rfl
    have e3 := mapM_at sm 2 40 (by omega)
    have d3 : (sm.drop 2).take 40 = salt := by
      rw [← hsm]; simp [← hsl]
    have e4 := mapM_at sm 42 msg.length (by omega)
    have d4 : (sm.drop 42).take msg.length = msg := by
      have : sm = ([slen / 256, slen % 256] ++ salt) ++ (msg ++ ([0x29] ++ comp)) := by rw [← hsm]; simp
      rw [this, List.drop_append_of_le_length (by simp [hsl]), List.drop_of_length_le (by simp [hsl])]
      simp
    have e5 : at? sm (2 + 40 + msg.length) = .ok 0x29 := by
      have : sm = ([slen / 256, slen % 256] ++ salt ++ msg) ++ 0x29 :: comp := by rw [← hsm]; simp
      rw [this]
      exact at_append' _ _ _ _ (by simp [hsl]; omega)
    have bpre : IsBytes ([slen / 256, slen % 256] ++ salt ++ msg ++ [0x29]) := by
      refine isBytes_append (isBytes_append (isBytes_append ?_ bs) bm) ?_
      · intro b hb; simp at hb; omega
      · intro b hb; simp at hb; omega
    have e6 := contract_reads_compress ([slen / 256, slen % 256] ++ salt ++ msg ++ [0x29]) comp ext bpre be 625 (by decide) v hvl hc hv
    rw [hsm] at e6
    have l6 : ([slen / 256, slen % 256] ++ salt ++ msg ++ [0x29]).length = 2 + 40 + msg.length + 1 := by simp [hsl]; omega
    rw [l6] at e6
    rw [e0, e1, e2, e3, e4, e5, e6, d3, d4, p2]
    rfl

theorem at_ok_iff (a : Bytes) (i c : Nat) : at? a i = .ok c ↔ a[i]? = some c := by
  unfold at?
  cases a[i]? <;> simp

/-- **C60, exact acceptance**: `decompress_KAT` returns `(h, s2, salt, message)` iff the key starts with the header `0x09` and decodes to
`h`, the forty bytes from index 2 are the salt, the next `mlen` bytes the message, the byte after them is the header `0x29`, and
the bytes after that decode to `s2`. -/
theorem decompressKAT_ok_iff (pk sm : Bytes) (mlen : Nat) (ext : Bytes) (h s2 : List Nat) (salt msg : Bytes) :
    decompressKAT pk sm mlen ext = .ok (h, s2, salt, msg) ↔
      pk[0]? = some 0x09 ∧ solDecompress pk 1 = .ok h ∧
      salt = (sm.drop 2).take 40 ∧ msg = (sm.drop 42).take mlen ∧ sm[42 + mlen]? = some 0x29 ∧
      decompressSig (sm ++ ext) (43 + mlen) = .ok s2 := by
  constructor
  · intro hk
    unfold decompressKAT at hk
    simp only [bind, Except.bind, throw, throwThe, MonadExceptOf.throw, pure, Except.pure] at hk
    cases a0 : at? sm 0 with
    | error e => rw [a0] at hk; cases hk
    | ok x0 =>
    cases a1 : at? sm 1 with
    | error e => rw [a0, a1] at hk; cases hk
    | ok x1 =>
    cases a2 : at? pk 0 with
    | error e => rw [a0, a1, a2] at hk; cases hk
    | ok hd =>
    rw [a0, a1, a2] at hk
    simp only at hk
    have hhd : hd = 9 := by
      refine Decidable.byContradiction fun hc => ?_
      rw [if_pos hc] at hk; cases hk
    rw [if_neg (by simpa using hhd)] at hk
    cases a3 : solDecompress pk 1 with
    | error e => rw [a3] at hk; cases hk
    | ok hh =>
    rw [a3] at hk
    simp only at hk
    cases a4 : (List.range 40).mapM (fun i => at? sm (i + 2)) with
    | error e => rw [a4] at hk; cases hk
    | ok sa =>
    rw [a4] at hk
    simp only at hk
    cases a5 : (List.range mlen).mapM (fun i => at? sm (i + 42)) with
    | error e => rw [a5] at hk; cases hk
    | ok me =>
    rw [a5] at hk
    simp only at hk
    cases a6 : at? sm (2 + 40 + mlen) with
    | error e => rw [a6] at hk; cases hk
    | ok hb =>
    rw [a6] at hk
    simp only at hk
    have hhb : hb = 0x29 := by
      refine Decidable.byContradiction fun hc => ?_
      rw [if_pos hc] at hk; cases hk
    rw [if_neg (by simpa using hhb)] at hk
    cases a7 : decompressSig (sm ++ ext) (2 + 40 + mlen + 1) with
    | error e => rw [a7] at hk; cases hk
    | ok s =>
    rw [a7] at hk
    cases hk
    subst hhd hhb
    have l6 := (at_ok_iff _ _ _).1 a6
    have hlen : 2 + 40 + mlen < sm.length := by
      refine Decidable.byContradiction fun hc => ?_
      rw [List.getElem?_eq_none (by omega)] at l6; cases l6
    rw [mapM_at sm 2 40 (by omega)] at a4
    rw [mapM_at sm 42 mlen (by omega)] at a5
    cases a4; cases a5
    refine ⟨(at_ok_iff _ _ _).1 a2, rfl, rfl, rfl, by rw [← l6], ?_⟩
    rw [← a7]; congr 1; omega
  · rintro ⟨e1, e2, rfl, rfl, e5, e6⟩
    have hlen : 42 + mlen < sm.length := by
      refine Decidable.byContradiction fun hc => ?_
      rw [List.getElem?_eq_none (by omega)] at e5; cases e5
    have a0 : at? sm 0 = .ok (sm[0]'(by omega)) := (at_ok_iff _ _ _).2 (List.getElem?_eq_getElem _)
    have a1 : at? sm 1 = .ok (sm[1]'(by omega)) := (at_ok_iff _ _ _).2 (List.getElem?_eq_getElem _)
    have a2 := (at_ok_iff _ _ _).2 e1
    have a6 : at? sm (2 + 40 + mlen) = .ok 0x29 := (at_ok_iff _ _ _).2 e5
    rw [show 43 + mlen = 2 + 40 + mlen + 1 by omega] at e6
    unfold decompressKAT
    rw [a0, a1, a2, e2, mapM_at sm 2 40 (by omega), mapM_at sm 42 mlen (by omega), a6, e6]
    rfl

/-- Finding (C60, second half is false): the two length bytes are read but never compared with anything. -/
theorem decompressKAT_ignores_length (pk : Bytes) (a b a' b' : Nat) (body ext : Bytes) (mlen : Nat)
    (hby : IsBytes (a :: b :: body)) (hby' : IsBytes (a' :: b' :: body)) (he : IsBytes ext) (r) :
    decompressKAT pk (a :: b :: body) mlen ext = .ok r → decompressKAT pk (a' :: b' :: body) mlen ext = .ok r := by
  have hat : ∀ i, at? (a :: b :: body) (i + 2) = at? (a' :: b' :: body) (i + 2) := fun i => rfl
  have hat2 : ∀ i, at? (a :: b :: body) (i + 42) = at? (a' :: b' :: body) (i + 42) := fun i => hat (i + 40)
  have h3 : ∀ i, at? (a :: b :: body) (2 + 40 + i) = at? (a' :: b' :: body) (2 + 40 + i) := by
    intro i; have := hat (40 + i); rwa [show 40 + i + 2 = 2 + 40 + i by omega] at this
  have hseg : ∀ p k, 16 ≤ p → seg (a :: b :: body ++ ext) p k = seg (a' :: b' :: body ++ ext) p k := by
    intro p k hp
    induction k generalizing p with
    | zero => rfl
    | succ k ih =>
      rw [seg, seg, ih (p + 1) (by omega)]
      congr 1
      unfold bitAt rd
      obtain ⟨m, hm⟩ : ∃ m, p / 8 = m + 2 := ⟨p / 8 - 2, by omega⟩
      rw [hm]; rfl
  have h4 : ∀ o x, 2 ≤ o → (decompressSig (a :: b :: body ++ ext) o = .ok x ↔ decompressSig (a' :: b' :: body ++ ext) o = .ok x) := by
    intro o x ho
    rw [decompressSig_ok_iff _ (isBytes_append hby he), decompressSig_ok_iff _ (isBytes_append hby' he)]
    simp only [hseg (8 * o) _ (by omega)]
  intro h
  unfold decompressKAT at h ⊢
  have z0 : at? (a :: b :: body) 0 = .ok a := rfl
  have z1 : at? (a :: b :: body) 1 = .ok b := rfl
  have z0' : at? (a' :: b' :: body) 0 = .ok a' := rfl
  have z1' : at? (a' :: b' :: body) 1 = .ok b' := rfl
  rw [z0, z1] at h
  rw [z0', z1']
  simp only [hat, hat2, h3] at h
  cases hs : decompressSig (a :: b :: body ++ ext) (2 + 40 + mlen + 1) with
  | ok x =>
    have := (h4 _ x (by omega)).1 hs
    rw [hs] at h
    rw [this]
    exact h
  | error e =>
    exfalso
    rw [hs] at h
    simp only [bind, Except.bind, throw, throwThe, MonadExceptOf.throw, pure, Except.pure] at h
    cases h1 : at? pk 0 with
    | error e => rw [h1] at h; cases h
    | ok hd =>
      rw [h1] at h
      simp only at h
      split at h
      · cases h
      · cases h2 : solDecompress pk 1 with
        | error e => rw [h2] at h; cases h
        | ok hh =>
          rw [h2] at h
          simp only at h
          split at h
          · cases h
          · split at h
            · cases h
            · split at h
              · cases h
              · split at h <;> cases h

end Verif.SolSig
