import Verif.CRef.CodecLemmas
import Verif.Encoding.Props

/-! # Lemmas on `comp_encode` and `comp_decode` -/

namespace Verif.CRef
open Verif Verif.Codec Verif.Codec.Spec Verif.Encoding Verif.Encoding.Spec

theorem OutInv.length {U : List Bool} {acc l : Nat} {out : Bytes} (h : OutInv U acc l out) : U.length = 8 * out.length + l := by
  obtain ⟨_, r, rfl, rfl, _⟩ := h; simp

theorem natBits_one (w : Nat) : natBits (w + 1) 1 = List.replicate w false ++ [true] := by
  have h := natBits_append w 1 1
  rw [h]
  cases w with
  | zero => rfl
  | succ w =>
    rw [Nat.div_eq_of_lt (by decide), natBits_zero]; rfl

theorem compPush_ok (U : List Bool) (acc l : Nat) (out : Bytes) (c : Int) (h : OutInv U acc l out) (h8 : l < 8) (hc : c.natAbs ≤ 2047) :
    OutInv (U ++ codeword c) (compPush acc l c).1 (compPush acc l c).2 out := by
  have hw : c.natAbs >>> 7 ≤ 15 := by rw [Nat.shiftRight_eq_div_pow]; omega
  have h1 := h.push 1 (if c < 0 then 1 else 0) (by split <;> decide) (by omega)
  have h2 := h1.push 7 (c.natAbs &&& 127) (by rw [show 127 = 2 ^ 7 - 1 by decide, Nat.and_two_pow_sub_one_eq_mod]; exact Nat.mod_lt _ (by decide)) (by omega)
  have h3 := h2.push (c.natAbs >>> 7 + 1) 1 (Nat.one_lt_two_pow (by omega)) (by omega)
  have e : U ++ natBits 1 (if c < 0 then 1 else 0) ++ natBits 7 (c.natAbs &&& 127) ++ natBits (c.natAbs >>> 7 + 1) 1 = U ++ codeword c := by
    rw [natBits_one, codeword, show 127 = 2 ^ 7 - 1 by decide, Nat.and_two_pow_sub_one_eq_mod, Nat.shiftRight_eq_div_pow]
    have : natBits 1 (if c < 0 then 1 else 0) = [decide (c < 0)] := by
      by_cases hn : c < 0 <;> simp [hn, natBits]
    rw [this]
    simp
  rw [e] at h3
  unfold compPush
  dsimp only
  have e2 : l + 8 + (c.natAbs >>> 7 + 1) = l + 1 + 7 + (c.natAbs >>> 7 + 1) := by omega
  rw [e2]
  exact h3

/-- The bits fit the capacity. -/
def Fits (cap : Option Nat) (k : Nat) : Prop := ∀ c, cap = some c → k ≤ c

instance (cap : Option Nat) (k : Nat) : Decidable (Fits cap k) := by
  cases cap with
  | none => exact .isTrue (by intro c h; cases h)
  | some c => exact if h : k ≤ c then .isTrue (by intro d hd; cases hd; exact h) else .isFalse (fun hf => h (hf c rfl))

theorem full_iff (cap : Option Nat) (k : Nat) : cap.any (fun c => decide (k ≥ c)) = true ↔ ¬ Fits cap (k + 1) := by
  cases cap with
  | none => simp [Fits]
  | some c => simp [Fits]; omega

theorem emitCap_ok (cap : Option Nat) (U : List Bool) (acc l : Nat) (out : Bytes) (h : OutInv U acc l out) (hout : Fits cap out.length) :
    (Fits cap (U.length / 8) → ∃ l' out', emitCap cap acc l out = some (l', out') ∧ l' < 8 ∧ OutInv U acc l' out') ∧
    (¬ Fits cap (U.length / 8) → emitCap cap acc l out = none) := by
  induction hl : l using Nat.strongRecOn generalizing l out with
  | _ k ih =>
    subst hl
    have hU := h.length
    rw [emitCap]
    by_cases h8 : l ≥ 8
    · rw [if_pos h8]
      by_cases hf : cap.any (fun c => decide (out.length ≥ c)) = true
      · rw [if_pos hf]
        rw [full_iff] at hf
        refine ⟨fun hfit => absurd ?_ hf, fun _ => rfl⟩
        intro c hc
        have := hfit c hc
        omega
      · rw [if_neg hf]
        rw [full_iff, not_not] at hf
        refine ih (l - 8) (by omega) (l - 8) _ (h.byte h8) ?_ rfl
        simpa using hf
    · rw [if_neg h8]
      refine ⟨fun _ => ⟨l, out, rfl, by omega, h⟩, fun hn => absurd ?_ hn⟩
      have : U.length / 8 = out.length := by omega
      rw [this]; exact hout

theorem compEncLoop_ok (cap : Option Nat) (x : List Int) (hx : ∀ c ∈ x, c.natAbs ≤ 2047) (U : List Bool) (acc l : Nat) (out : Bytes)
    (h : OutInv U acc l out) (h8 : l < 8) (hout : Fits cap out.length) :
    (Fits cap (((U ++ code x).length + 7) / 8) → ∃ y, compEncLoop cap x acc l out = some y ∧ IsBytes y ∧ ∃ k, k < 8 ∧ bytesBits y = U ++ code x ++ zeros k) ∧
    (¬ Fits cap (((U ++ code x).length + 7) / 8) → compEncLoop cap x acc l out = none) := by
  induction x generalizing U acc l out with
  | nil =>
    have hU := h.length
    rw [compEncLoop]
    simp only [code, List.append_nil]
    by_cases h0 : l > 0
    · rw [if_pos h0]
      have e : (U.length + 7) / 8 = out.length + 1 := by omega
      rw [e]
      by_cases hf : cap.any (fun c => decide (out.length ≥ c)) = true
      · rw [if_pos hf]
        rw [full_iff] at hf
        exact ⟨fun h => absurd h hf, fun _ => rfl⟩
      · rw [if_neg hf]
        rw [full_iff, not_not] at hf
        obtain ⟨a, b⟩ := h.last h0 h8
        exact ⟨fun _ => ⟨_, rfl, a, 8 - l, by omega, b⟩, fun hn => absurd hf hn⟩
    · rw [if_neg h0]
      obtain rfl : l = 0 := by omega
      obtain ⟨a, b⟩ := h.done
      have e : (U.length + 7) / 8 = out.length := by omega
      rw [e]
      exact ⟨fun _ => ⟨_, rfl, a, 0, by omega, by rw [b]; simp [zeros]⟩, fun hn => absurd hout hn⟩
  | cons c x ih =>
    rw [compEncLoop]
    have hp := compPush_ok U acc l out c h h8 (hx c (by simp))
    have hlen : (U ++ code (c :: x)).length = (U ++ codeword c).length + (code x).length := by
      simp only [code, List.length_append]; omega
    obtain ⟨e1, e2⟩ := emitCap_ok cap _ _ _ _ hp hout
    by_cases hf : Fits cap ((U ++ codeword c).length / 8)
    · obtain ⟨l', out', a1, a2, a3⟩ := e1 hf
      rw [a1]
      dsimp only
      have hl3 := a3.length
      have := ih (fun d hd => hx d (by simp [hd])) _ _ _ _ a3 a2 (by
        have : out'.length = (U ++ codeword c).length / 8 := by omega
        rw [this]; exact hf)
      have ec : U ++ codeword c ++ code x = U ++ code (c :: x) := by simp [code]
      rw [ec] at this
      exact this
    · rw [e2 hf]
      refine ⟨fun hn => absurd ?_ hf, fun _ => rfl⟩
      intro d hd
      have := hn d hd
      rw [hlen] at this
      omega

/-! ## Reading -/

theorem AccIs.head {acc : Nat} {b : Bool} {r : List Bool} (h : AccIs acc (b :: r)) : ((acc >>> r.length) &&& 1 ≠ 0) ↔ b = true := by
  have ht := h.top 1 (by simp)
  simp only [List.length_cons, Nat.add_sub_cancel, List.take_succ_cons, List.take_zero] at ht
  rw [show (2 ^ 1 - 1 : Nat) = 1 by decide] at ht
  rw [ht]
  cases b <;> simp [bitsNat]

theorem AccIs.tail {acc : Nat} {b : Bool} {r : List Bool} (h : AccIs acc (b :: r)) : AccIs acc r := by
  have := h.drop 1
  simpa using this

/-- One bit read by the `for (;;)` loop: the unread bits are `b :: u`. -/
theorem compScan_step (acc : Nat) (r : List Bool) (m : Nat) (data : Bytes) (hd : IsBytes data) (ha : AccIs acc r) (hr : r.length ≤ 8) :
    (r ++ bytesBits data = [] ∧ compScan acc r.length m data = none) ∨
    ∃ b acc' r' data', r ++ bytesBits data = b :: (r' ++ bytesBits data') ∧ AccIs acc' r' ∧ r'.length ≤ 7 ∧ IsBytes data' ∧ data' <:+ data ∧
      compScan acc r.length m data = if b then some (acc', r'.length, m, data') else if m + 128 > 2047 then none else compScan acc' r'.length (m + 128) data' := by
  have key : ∀ (acc : Nat) (b : Bool) (r : List Bool) (data : Bytes), AccIs acc (b :: r) →
      (let accLen := (b :: r).length - 1
       if (acc >>> accLen) &&& 1 ≠ 0 then some (acc, accLen, m, data)
       else if h : m + 128 > 2047 then none else compScan acc accLen (m + 128) data) =
      if b then some (acc, r.length, m, data) else if m + 128 > 2047 then none else compScan acc r.length (m + 128) data := by
    intro acc b r data h
    have := AccIs.head h
    simp only [List.length_cons, Nat.add_sub_cancel]
    cases b with
    | true => rw [if_pos (this.2 rfl)]; simp
    | false =>
      rw [if_neg (by rw [this]; simp)]
      simp
  cases r with
  | nil =>
    cases data with
    | nil => left; refine ⟨rfl, ?_⟩; rw [compScan.eq_def]; simp
    | cons d data =>
      right
      have hdb : d < 2 ^ 8 := hd d (by simp)
      have ha' := push32_ok ha 8 d hdb (by simp)
      rw [List.nil_append] at ha'
      obtain ⟨b, r', hbr⟩ : ∃ b r', natBits 8 d = b :: r' := ⟨_, _, rfl⟩
      have hl : r'.length = 7 := by
        have := congrArg List.length hbr
        simp at this; omega
      rw [hbr] at ha'
      refine ⟨b, _, r', data, by simp [hbr], AccIs.tail ha', by omega, fun c hc => hd c (by simp [hc]), List.suffix_cons _ _, ?_⟩
      rw [← key _ _ _ _ ha', compScan.eq_def]
      simp [hl]
  | cons b r =>
    right
    refine ⟨b, acc, r, data, by simp, AccIs.tail ha, by simp at hr; omega, hd, List.suffix_refl _, ?_⟩
    rw [← key _ _ _ _ ha, compScan.eq_def]
    simp

/-- The `for (;;)` loop reads the unary part. -/
theorem compScan_ok (u : List Bool) (acc : Nat) (r : List Bool) (m : Nat) (data : Bytes) (hd : IsBytes data) (ha : AccIs acc r) (hr : r.length ≤ 8)
    (hu : r ++ bytesBits data = u) (hm : m ≤ 2047) :
    match scanUnary u with
    | none => compScan acc r.length m data = none
    | some (h, rest) => if m + 128 * h ≤ 2047 then
        ∃ acc' r' data', compScan acc r.length m data = some (acc', r'.length, m + 128 * h, data') ∧ r' ++ bytesBits data' = rest ∧ AccIs acc' r' ∧ r'.length ≤ 7 ∧
          IsBytes data' ∧ data' <:+ data
        else compScan acc r.length m data = none := by
  induction u generalizing acc r m data with
  | nil =>
    rcases compScan_step acc r m data hd ha hr with ⟨h1, h2⟩ | ⟨b, acc', r', data', h1, _⟩
    · rw [scanUnary]; exact h2
    · rw [hu] at h1; cases h1
  | cons b u ih =>
    rcases compScan_step acc r m data hd ha hr with ⟨h1, h2⟩ | ⟨b', acc', r', data', h1, h2, h3, h4, h5, h6⟩
    · rw [hu] at h1; cases h1
    · rw [hu] at h1
      simp only [List.cons.injEq] at h1
      obtain ⟨rfl, rfl⟩ := h1
      rw [h6]
      cases b with
      | true =>
        simp only [scanUnary, if_true, Nat.mul_zero, Nat.add_zero]
        rw [if_pos hm]
        exact ⟨acc', r', data', rfl, rfl, h2, h3, h4, h5⟩
      | false =>
        simp only [scanUnary, Bool.false_eq_true, if_false]
        by_cases hg : m + 128 > 2047
        · rw [if_pos hg]
          cases hs : scanUnary (r' ++ bytesBits data') with
          | none => rfl
          | some p =>
            simp only [Option.map_some]
            rw [if_neg (show ¬ m + 128 * (p.1 + 1) ≤ 2047 by omega)]; trivial
        · rw [if_neg hg]
          have := ih acc' r' (m + 128) data' h4 h2 (by omega) rfl (by omega)
          cases hs : scanUnary (r' ++ bytesBits data') with
          | none => rw [hs] at this; exact this
          | some p =>
            rw [hs] at this
            simp only [Option.map_some]
            dsimp only at this
            have e : m + 128 + 128 * p.1 = m + 128 * (p.1 + 1) := by omega
            rw [e] at this
            by_cases hle : m + 128 * (p.1 + 1) ≤ 2047
            · rw [if_pos hle] at this ⊢
              obtain ⟨a1, a2, a3, b1, b2, b3, b4, b5, b6⟩ := this
              exact ⟨a1, a2, a3, b1, b2, b3, b4, b5, b6.trans h5⟩
            · rw [if_neg hle] at this ⊢; exact this

/-- The first eight unread bits. -/
theorem head8 (acc : Nat) (r : List Bool) (d : Nat) (hd : d < 256) (ha : AccIs acc r) (hr : r.length ≤ 7) (s : Bool) (t : List Bool) (data : Bytes)
    (hst : r ++ bytesBits (d :: data) = s :: t) :
    let acc' := push32 acc 8 d
    (((acc' >>> r.length) &&& 128 ≠ 0) ↔ s = true) ∧ (acc' >>> r.length) &&& 127 = bitsNat (t.take 7) ∧
      AccIs acc' ((r ++ natBits 8 d).drop 8) ∧ ((r ++ natBits 8 d).drop 8).length = r.length ∧ (r ++ natBits 8 d).drop 8 ++ bytesBits data = t.drop 7 := by
  have ha' := push32_ok ha 8 d (by simpa using hd) (by omega)
  dsimp only
  have hl : (r ++ natBits 8 d).length = r.length + 8 := by simp
  have e : (r ++ natBits 8 d) ++ bytesBits data = s :: t := by rw [← hst]; simp
  have et : (r ++ natBits 8 d).take 8 = s :: t.take 7 := by
    have := congrArg (List.take 8) e
    rw [List.take_append_of_le_length (by omega)] at this
    simpa using this
  have top := ha'.top 8 (by omega)
  rw [hl, Nat.add_sub_cancel, et, Nat.and_two_pow_sub_one_eq_mod] at top
  have ht7 : (t.take 7).length = 7 := by
    have := congrArg List.length et
    simp at this ⊢; omega
  have hlt := bitsNat_lt (t.take 7)
  rw [ht7] at hlt
  simp only [bitsNat, ht7] at top
  generalize push32 acc 8 d >>> r.length = b at *
  refine ⟨?_, ?_, ha'.drop 8, by simp, ?_⟩
  · have h128 : b &&& 128 = (b % 2 ^ 8) &&& 128 := by
      rw [show (128 : Nat) = 2 ^ 7 by decide]
      apply Nat.eq_of_testBit_eq
      intro i
      rw [Nat.testBit_and, Nat.testBit_and, Nat.testBit_mod_two_pow, Nat.testBit_two_pow]
      by_cases hi : 7 = i
      · subst hi; simp
      · simp [hi]
    rw [h128, top]
    have hz : ∀ z, z &&& 128 ≠ 0 ↔ z.testBit 7 = true := by
      intro z
      rw [show (128 : Nat) = 2 ^ 7 by decide]
      constructor
      · intro hne
        by_contra hf
        apply hne
        apply Nat.eq_of_testBit_eq
        intro i
        rw [Nat.testBit_and, Nat.testBit_two_pow, Nat.zero_testBit]
        by_cases hi : 7 = i
        · subst hi; simpa using hf
        · simp [hi]
      · intro h hz
        have := congrArg (fun z => Nat.testBit z 7) hz
        rw [Nat.testBit_and, h, Nat.testBit_two_pow] at this
        simp at this
    rw [hz]
    cases s with
    | true =>
      simp only [if_true]
      rw [Nat.testBit_two_pow_add_eq, Nat.testBit_lt_two_pow hlt]; simp
    | false =>
      simp only [Bool.false_eq_true, if_false, Nat.zero_add]
      rw [Nat.testBit_lt_two_pow hlt]; simp
  · rw [show (127 : Nat) = 2 ^ 7 - 1 by decide, Nat.and_two_pow_sub_one_eq_mod]
    have : b % 2 ^ 7 = (b % 2 ^ 8) % 2 ^ 7 := (Nat.mod_mod_of_dvd _ (by decide)).symm
    rw [this, top]
    cases s
    · simp only [Bool.false_eq_true, if_false, Nat.zero_add]; exact Nat.mod_eq_of_lt hlt
    · simp only [if_true]; rw [Nat.add_mod_left]; exact Nat.mod_eq_of_lt hlt
  · have := congrArg (List.drop 8) e
    rw [List.drop_append_of_le_length (by omega)] at this
    simpa using this

theorem natAbs_signed (s : Bool) (m : Nat) : (if s = true then -(m : Int) else (m : Int)) = signOf s * (m : Int) := by
  cases s <;> simp [signOf]

/-- Soundness of the coefficient loop. -/
theorem compDecLoop_sound (u : Nat) (acc : Nat) (r : List Bool) (x : List Int) (data : Bytes) (hd : IsBytes data) (ha : AccIs acc r) (hr : r.length ≤ 7)
    (z : List Int) (d' : Bytes) (h : compDecLoop u acc r.length x data = some (z, d')) :
    ∃ y k, z = x ++ y ∧ y.length = u ∧ (∀ c ∈ y, c.natAbs ≤ 2047) ∧ k < 8 ∧ r ++ bytesBits data = code y ++ zeros k ++ bytesBits d' ∧ d' <:+ data := by
  induction u generalizing acc r x data with
  | zero =>
    rw [compDecLoop, ha.low] at h
    split at h
    · cases h
    · rename_i hz
      simp only [Option.some.injEq, Prod.mk.injEq] at h
      obtain ⟨rfl, rfl⟩ := h
      have hz' := (bitsNat_eq_zero_iff r).1 (by omega)
      exact ⟨[], r.length, by simp, rfl, by simp, by omega, by rw [← hz']; simp [code], List.suffix_refl _⟩
  | succ u ih =>
    cases data with
    | nil => rw [compDecLoop] at h; cases h
    | cons d data =>
      rw [compDecLoop] at h
      obtain ⟨s, t, hst⟩ : ∃ s t, r ++ bytesBits (d :: data) = s :: t := by
        cases hq : r ++ bytesBits (d :: data) with
        | nil => have := congrArg List.length hq; simp at this
        | cons s t => exact ⟨s, t, rfl⟩
      have hd' : IsBytes data := fun c hc => hd c (by simp [hc])
      obtain ⟨a1, a2, a3, a4, a5⟩ := head8 acc r d (hd d (by simp)) ha hr s t data hst
      have a2' : bitsNat (t.take 7) < 128 := by
        have := bitsNat_lt (t.take 7)
        refine Nat.lt_of_lt_of_le this ?_
        have : (t.take 7).length ≤ 7 := by simp
        exact Nat.pow_le_pow_right (n := 2) (by decide) this
      rw [a2] at h
      have hs := compScan_ok (t.drop 7) (push32 acc 8 d) _ (bitsNat (t.take 7)) data hd' a3 (by omega) a5 (by omega)
      rw [a4] at hs
      cases hsc : scanUnary (t.drop 7) with
      | none => rw [hsc] at hs; dsimp only at hs; rw [hs] at h; cases h
      | some p =>
        obtain ⟨hi, rest⟩ := p
        rw [hsc] at hs
        dsimp only at hs
        by_cases hle : bitsNat (t.take 7) + 128 * hi ≤ 2047
        · rw [if_pos hle] at hs
          obtain ⟨acc', r', data', b1, b2, b3, b4, b5, b6⟩ := hs
          rw [b1] at h
          dsimp only at h
          by_cases hneg : (push32 acc 8 d >>> r.length &&& 128 ≠ 0) ∧ bitsNat (t.take 7) + 128 * hi = 0
          · rw [if_pos hneg] at h; cases h
          · rw [if_neg hneg] at h
            simp only [a1] at h
            obtain ⟨y, k, c1, c2, c3, c4, c5, c6⟩ := ih acc' r' _ data' b5 b3 b4 h
            have e7 : 7 ≤ t.length := by
              have := congrArg List.length hst
              simp at this; omega
            have hpc := parse_coef s t rest hi e7 hsc
            have esh : (hi <<< 7) = 128 * hi := by rw [Nat.shiftLeft_eq]; omega
            rw [esh, ← natAbs_signed] at hpc
            have hpc := hpc (by
              rintro ⟨g1, g2⟩
              apply hneg
              have : s = true := by cases s <;> simp [signOf] at g2 ⊢
              subst this
              refine ⟨a1.2 rfl, ?_⟩
              simp at g1; omega)
            refine ⟨(if s = true then -((bitsNat (t.take 7) + 128 * hi : Nat) : Int) else ((bitsNat (t.take 7) + 128 * hi : Nat) : Int)) :: y, k, by rw [c1]; simp, by simp [c2], ?_, c4, ?_, ?_⟩
            · intro c hc
              rcases List.mem_cons.1 hc with rfl | hc
              · cases s <;> simp <;> omega
              · exact c3 c hc
            · rw [hst, hpc, ← b2, c5, codeword_eq, code]; simp only [List.append_assoc]
            · exact c6.trans (b6.trans (List.suffix_cons _ _))
        · rw [if_neg hle] at hs; rw [hs] at h; cases h

/-- Completeness of the coefficient loop. -/
theorem compDecLoop_complete (y : List Int) (hy : ∀ c ∈ y, c.natAbs ≤ 2047) (acc : Nat) (r : List Bool) (x : List Int) (data : Bytes) (hd : IsBytes data)
    (ha : AccIs acc r) (hr : r.length ≤ 7) (tail : List Bool) (h : r ++ bytesBits data = code y ++ tail) :
    ∃ acc' r' data', r' ++ bytesBits data' = tail ∧ r'.length ≤ 7 ∧ AccIs acc' r' ∧ data' <:+ data ∧
      compDecLoop y.length acc r.length x data = compDecLoop 0 acc' r'.length (x ++ y) data' := by
  induction y generalizing acc r x data with
  | nil => exact ⟨acc, r, data, by simpa [code] using h, hr, ha, List.suffix_refl _, by simp⟩
  | cons c y ih =>
    have hlen := congrArg List.length h
    simp only [List.length_append, bytesBits_length, code, ← codeword_eq, encodeCoef_length] at hlen
    cases data with
    | nil => simp at hlen; omega
    | cons d data =>
      have hd' : IsBytes data := fun c hc => hd c (by simp [hc])
      have hst : r ++ bytesBits (d :: data) = decide (c < 0) :: (natBits 7 (c.natAbs % 128) ++ (List.replicate (c.natAbs / 128) false ++ true :: (code y ++ tail))) := by
        rw [h, code, codeword]; simp
      obtain ⟨a1, a2, a3, a4, a5⟩ := head8 acc r d (hd d (by simp)) ha hr _ _ data hst
      have e7 : (natBits 7 (c.natAbs % 128) ++ (List.replicate (c.natAbs / 128) false ++ true :: (code y ++ tail))).take 7 = natBits 7 (c.natAbs % 128) := by
        rw [List.take_append_of_le_length (by simp), List.take_of_length_le (by simp)]
      have e8 : (natBits 7 (c.natAbs % 128) ++ (List.replicate (c.natAbs / 128) false ++ true :: (code y ++ tail))).drop 7 =
          List.replicate (c.natAbs / 128) false ++ true :: (code y ++ tail) := by
        rw [List.drop_append_of_le_length (by simp), List.drop_of_length_le (by simp), List.nil_append]
      rw [e7, bitsNat_natBits, Nat.mod_eq_of_lt (by omega)] at a2
      rw [e8] at a5
      have hc := hy c (by simp)
      have hs := compScan_ok _ (push32 acc 8 d) _ (c.natAbs % 128) data hd' a3 (by omega) a5 (by omega)
      rw [scanUnary_append, a4] at hs
      dsimp only at hs
      have em : c.natAbs % 128 + 128 * (c.natAbs / 128) = c.natAbs := by omega
      rw [em, if_pos hc] at hs
      obtain ⟨acc', r', data', b1, b2, b3, b4, b5, b6⟩ := hs
      have hval : (if decide (c < 0) = true then -(c.natAbs : Int) else (c.natAbs : Int)) = c := by
        by_cases hn : c < 0
        · rw [if_pos (by simpa using hn)]; omega
        · rw [if_neg (by simpa using hn)]; omega
      obtain ⟨acc2, r2, d2, g1, g2, g3, g4, g5⟩ := ih (fun d hd => hy d (by simp [hd])) acc' r' (x ++ [c]) data' b5 b3 b4 b2
      refine ⟨acc2, r2, d2, g1, g2, g3, g4.trans (b6.trans (List.suffix_cons _ _)), ?_⟩
      rw [List.length_cons]
      conv_lhs => rw [compDecLoop]
      rw [a2, b1]
      dsimp only
      rw [if_neg]
      · simp only [a1]
        rw [hval, g5]; simp
      · rintro ⟨g1, g2⟩
        have := a1.1 g1
        simp at this; omega

end Verif.CRef
