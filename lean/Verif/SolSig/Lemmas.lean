import Verif.SolSig.Model
import Verif.Codec.Lemmas
import Verif.Encoding.Props

namespace Verif.SolSig
open Verif Codec

/-- bit `p` of the memory -/
def bitAt (mem : Bytes) (p : Nat) : Bool := (rd mem (p / 8)).testBit (7 - p % 8)

/-- `k` bits of memory from position `p` -/
def seg (mem : Bytes) (p : Nat) : Nat → List Bool
  | 0 => []
  | k + 1 => bitAt mem p :: seg mem (p + 1) k

@[simp] theorem seg_length (mem p k) : (seg mem p k).length = k := by
  induction k generalizing p with
  | zero => rfl
  | succ k ih => simp [seg, ih]

theorem seg_add (mem : Bytes) (p a b : Nat) : seg mem p (a + b) = seg mem p a ++ seg mem (p + a) b := by
  induction a generalizing p with
  | zero => simp [seg]
  | succ a ih =>
    rw [show a + 1 + b = (a + b) + 1 by omega]
    simp only [seg, ih, List.cons_append]
    rw [show p + 1 + a = p + (a + 1) by omega]

theorem seg_byte (mem : Bytes) (v : Nat) : natBits 8 (rd mem v) = seg mem (8 * v) 8 := by
  have h : ∀ j, j < 8 → bitAt mem (8 * v + j) = (rd mem v).testBit (7 - j) := by
    intro j hj
    unfold bitAt
    rw [show (8 * v + j) / 8 = v by omega, show (8 * v + j) % 8 = j by omega]
  simp only [seg, natBits]
  rw [show 8 * v = 8 * v + 0 by omega]
  simp only [Nat.add_assoc]
  rw [h 0 (by decide), h _ (by decide), h _ (by decide), h _ (by decide), h _ (by decide), h _ (by decide), h _ (by decide), h _ (by decide)]

theorem rd_lt (mem : Bytes) (hm : IsBytes mem) (v : Nat) : rd mem v < 2 ^ 8 := by
  unfold rd
  rw [List.getD_eq_getElem?_getD]
  cases h : mem[v]? with
  | none => simp
  | some b => exact hm b (List.mem_of_getElem? h)

theorem AccIs.push256 {acc : Nat} {r : List Bool} (h : AccIs acc r) (b : Nat) (hb : b < 2 ^ 8) (hr : r.length ≤ 200) :
    AccIs (((acc <<< 8) % 2 ^ 256) ||| b) (r ++ natBits 8 b) := by
  have e : ((acc <<< 8) % 2 ^ 256) ||| b = ((acc <<< 8) ||| b) % 2 ^ 256 := by
    rw [Nat.or_mod_two_pow, Nat.mod_eq_of_lt (show b < 2 ^ 256 by omega)]
  rw [e]
  exact (h.push 8 b hb).mod 256 (by simp; omega)

/-- the unary part from position `p`: number of zero bits before the first one, limited by the accumulated value -/
def scan (mem : Bytes) (p m : Nat) : Option (Nat × Nat) :=
  if bitAt mem p then some (p + 1, m)
  else if m + 128 > 2047 then none
  else scan mem (p + 1) (m + 128)
termination_by 2048 - m
decreasing_by omega

theorem unaryLoop_eq (mem : Bytes) (hm : IsBytes mem) (acc accLen v m p : Nat) (hp : 8 * v = p + accLen) (hl : accLen < 8)
    (ha : AccIs acc (seg mem p accLen)) :
    (∀ e, unaryLoop mem acc accLen v m = .error e → e = .revert "coeff to big" ∧ scan mem p m = none) ∧
    (∀ acc' l' v' m', unaryLoop mem acc accLen v m = .ok (acc', l', v', m') →
      ∃ p', scan mem p m = some (p', m') ∧ 8 * v' = p' + l' ∧ l' < 8 ∧ AccIs acc' (seg mem p' l')) := by
  induction hk : 2048 - m using Nat.strongRecOn generalizing acc accLen v m p with
  | _ k ih =>
    -- the state after a possible refill
    obtain ⟨acc1, v1, l1, e1, hp1, hl1, ha1⟩ : ∃ acc1 v1 l1, unaryLoop mem acc accLen v m =
        (if (acc1 >>> l1) &&& 1 ≠ 0 then .ok (acc1, l1, v1, m)
         else if m + 128 > 2047 then .error (.revert "coeff to big") else unaryLoop mem acc1 l1 v1 (m + 128)) ∧
        8 * v1 = p + (l1 + 1) ∧ l1 < 8 ∧ AccIs acc1 (seg mem p (l1 + 1)) := by
      by_cases h0 : accLen = 0
      · subst h0
        refine ⟨((acc <<< 8) % 2 ^ 256) ||| rd mem v, 1 + v, 7, ?_, by omega, by omega, ?_⟩
        · rw [unaryLoop]; simp
        · have := AccIs.push256 ha (rd mem v) (rd_lt mem hm v) (by simp)
          rw [seg_byte] at this
          rw [show p = 8 * v by omega]
          simpa [seg] using this
      · refine ⟨acc, v, accLen - 1, ?_, by omega, by omega, ?_⟩
        · rw [unaryLoop]; simp [h0]
        · rw [show accLen - 1 + 1 = accLen by omega]; exact ha
    rw [e1]
    have hbit : (acc1 >>> l1) &&& 1 = if bitAt mem p then 1 else 0 := by
      have := ha1.top 1 (by simp)
      rw [seg_length, show l1 + 1 - 1 = l1 by omega] at this
      rw [show (1 : Nat) = 2 ^ 1 - 1 by decide, this]
      simp only [seg, List.take_succ_cons, List.take_zero, bitsNat, List.length_nil]
      split <;> simp
    have ha2 : AccIs acc1 (seg mem (p + 1) l1) := by
      have := ha1.drop 1
      simpa [seg] using this
    rw [hbit, scan]
    by_cases hb : bitAt mem p
    · simp only [hb, if_true]
      refine ⟨by simp, ?_⟩
      intro acc' l' v' m' h
      simp only [ne_eq, Nat.one_ne_zero, not_false_eq_true, if_true, Except.ok.injEq, Prod.mk.injEq] at h
      obtain ⟨rfl, rfl, rfl, rfl⟩ := h
      exact ⟨p + 1, rfl, by omega, hl1, ha2⟩
    · simp only [hb]
      by_cases hm2 : m + 128 > 2047
      · simp only [hm2, if_true]
        simp
      · simp only [hm2, if_false]
        simp only [ne_eq, not_true, if_false, Bool.false_eq_true]
        exact ih (2048 - (m + 128)) (by omega) acc1 l1 v1 (m + 128) (p + 1) (by omega) hl1 ha2 rfl

/-- generalised code word: sign bit, 7 low bits, unary high part -/
def cw (c : Bool × Nat) : List Bool :=
  c.1 :: natBits 7 (c.2 % 128) ++ List.replicate (c.2 / 128) false ++ [true]

/-- the value the contract stores -/
def val (c : Bool × Nat) : Nat := if c.1 then 12289 - c.2 else c.2

theorem cw_length (c : Bool × Nat) : (cw c).length = 9 + c.2 / 128 := by
  simp [cw]; omega

/-- `scan` succeeds exactly on a unary code within the limit -/
theorem scan_some_iff (mem : Bytes) (p m p' m' : Nat) :
    scan mem p m = some (p', m') ↔ ∃ h, m' = m + 128 * h ∧ p' = p + h + 1 ∧ (h ≠ 0 → m' ≤ 2047) ∧
      seg mem p (h + 1) = List.replicate h false ++ [true] := by
  induction hk : 2048 - m using Nat.strongRecOn generalizing m p with
  | _ k ih =>
    rw [scan]
    by_cases hb : bitAt mem p
    · simp only [hb, if_true, Option.some.injEq, Prod.mk.injEq]
      constructor
      · rintro ⟨rfl, rfl⟩; exact ⟨0, by omega, by omega, by simp, by simp [seg, hb]⟩
      · rintro ⟨h, h1, h2, _, h3⟩
        cases h with
        | zero => omega
        | succ h => simp [seg, hb, List.replicate_succ] at h3
    · simp only [hb]
      by_cases hm2 : m + 128 > 2047
      · simp only [hm2, if_true, Bool.false_eq_true, if_false]
        constructor
        · intro h; cases h
        · rintro ⟨h, h1, h2, h4, h3⟩
          cases h with
          | zero => simp [seg, hb] at h3
          | succ h => have := h4 (by omega); omega
      · simp only [hm2, if_false, Bool.false_eq_true]
        rw [ih (2048 - (m + 128)) (by omega) (p + 1) (m + 128) rfl]
        constructor
        · rintro ⟨h, h1, h2, h4, h3⟩
          refine ⟨h + 1, by omega, by omega, ?_, ?_⟩
          · intro _
            by_cases h0 : h = 0
            · subst h0; omega
            · exact h4 h0
          · rw [seg, h3]; simp [hb, List.replicate_succ]
        · rintro ⟨h, h1, h2, h4, h3⟩
          cases h with
          | zero => simp [seg, hb] at h3
          | succ h =>
            refine ⟨h, by omega, by omega, fun _ => h4 (by omega), ?_⟩
            rw [seg] at h3
            simp only [List.replicate_succ, List.cons_append, List.cons.injEq] at h3
            exact h3.2

/-- position-level specification of the coefficient loop -/
theorem sigLoop_ok_iff (mem : Bytes) (hm : IsBytes mem) (k acc accLen v p : Nat) (hp : 8 * v = p + accLen) (hl : accLen < 8)
    (ha : AccIs acc (seg mem p accLen)) (x : List Nat) (vEnd : Nat) :
    sigLoop mem k acc accLen v = .ok (x, vEnd) ↔
      ∃ cs : List (Bool × Nat), cs.length = k ∧ (∀ c ∈ cs, c.2 ≤ 2047) ∧ x = cs.map val ∧
        seg mem p (cs.flatMap cw).length = cs.flatMap cw ∧ vEnd = (p + (cs.flatMap cw).length + 7) / 8 := by
  induction k generalizing acc accLen v p x with
  | zero =>
    simp only [sigLoop, Except.ok.injEq, Prod.mk.injEq]
    constructor
    · rintro ⟨rfl, rfl⟩; exact ⟨[], rfl, by simp, rfl, rfl, by simp; omega⟩
    · rintro ⟨cs, h1, _, h2, _, h3⟩
      have : cs = [] := by simpa using h1
      subst this
      simp at h2 h3
      exact ⟨h2.symm, by omega⟩
  | succ k ih =>
    have ha1 := AccIs.push256 ha (rd mem v) (rd_lt mem hm v) (by simp; omega)
    rw [seg_byte, hp, ← seg_add] at ha1
    -- the eight bits of the coefficient head
    have hb : (((acc <<< 8) % 2 ^ 256) ||| rd mem v) >>> accLen &&& (2 ^ 8 - 1) = bitsNat (seg mem p 8) := by
      have := ha1.top 8 (by simp)
      rw [seg_length, show accLen + 8 - 8 = accLen by omega, Nat.add_comm accLen 8, seg_add,
        List.take_append_of_le_length (by simp), List.take_of_length_le (by simp)] at this
      exact this
    generalize hB : (((acc <<< 8) % 2 ^ 256) ||| rd mem v) >>> accLen = B at hb
    have hs : bitsNat (seg mem p 8) = (if bitAt mem p then 128 else 0) + bitsNat (seg mem (p + 1) 7) := by
      rw [seg]; simp [bitsNat]
    have h7 : bitsNat (seg mem (p + 1) 7) < 128 := by
      have := bitsNat_lt (seg mem (p + 1) 7); simpa using this
    rw [Nat.and_two_pow_sub_one_eq_mod, hs] at hb
    have e127 : B &&& 127 = bitsNat (seg mem (p + 1) 7) := by
      rw [show (127 : Nat) = 2 ^ 7 - 1 by decide, Nat.and_two_pow_sub_one_eq_mod]
      split at hb <;> omega
    have e128 : (B &&& 128 = 128) ↔ bitAt mem p = true := by
      have ht : B.testBit 7 = bitAt mem p := by
        rw [Nat.testBit_eq_decide_div_mod_eq]
        cases hbp : bitAt mem p
        · rw [hbp] at hb; simp at hb ⊢; omega
        · rw [hbp] at hb; simp at hb ⊢; omega
      rw [← ht]
      constructor
      · intro h
        have := congrArg (fun z => Nat.testBit z 7) h
        simpa [Nat.testBit_and, show Nat.testBit 128 7 = true by decide] using this
      · intro h
        apply Nat.eq_of_testBit_eq
        intro i
        rw [Nat.testBit_and, show (128 : Nat) = 2 ^ 7 by decide, Nat.testBit_two_pow]
        by_cases hi : 7 = i
        · subst hi; simp [h]
        · simp [hi]
    have ha2 : AccIs (((acc <<< 8) % 2 ^ 256) ||| rd mem v) (seg mem (p + 8) accLen) := by
      have := ha1.drop 8
      rw [Nat.add_comm accLen 8, seg_add, List.drop_append_of_le_length (by simp), List.drop_of_length_le (by simp)] at this
      simpa using this
    have hu := unaryLoop_eq mem hm _ accLen (v + 1) (bitsNat (seg mem (p + 1) 7)) (p + 8) (by omega) hl ha2
    simp only [sigLoop]
    rw [hB, e127]
    constructor
    · intro h
      split at h
      · cases h
      · rename_i acc' l' v' m' hun
        obtain ⟨p', hsc, hp', hl', ha'⟩ := hu.2 _ _ _ _ hun
        obtain ⟨hh, s1, s2, s4, s3⟩ := (scan_some_iff _ _ _ _ _).1 hsc
        split at h
        · cases h
        · rename_i xs vE hrec
          simp only [Except.ok.injEq, Prod.mk.injEq] at h
          obtain ⟨hx, rfl⟩ := h
          obtain ⟨cs, c1, c2, c3, c4, c5⟩ := (ih acc' l' v' p' hp' hl' ha' xs).1 hrec
          have hcw : cw (bitAt mem p, m') = seg mem p (9 + hh) := by
            rw [cw, s1]
            simp only
            rw [show (bitsNat (seg mem (p + 1) 7) + 128 * hh) % 128 = bitsNat (seg mem (p + 1) 7) by omega,
              show (bitsNat (seg mem (p + 1) 7) + 128 * hh) / 128 = hh by omega]
            have hn := natBits_bitsNat (seg mem (p + 1) 7)
            rw [seg_length] at hn
            rw [hn, show 9 + hh = 8 + (hh + 1) by omega, seg_add, s3]
            rw [show seg mem p 8 = bitAt mem p :: seg mem (p + 1) 7 from rfl, List.append_assoc]
          refine ⟨(bitAt mem p, m') :: cs, by simp [c1], ?_, ?_, ?_, ?_⟩
          · intro c hc
            rcases List.mem_cons.1 hc with rfl | hc
            · by_cases h0 : hh = 0
              · subst h0; simp; omega
              · exact s4 h0
            · exact c2 c hc
          · rw [← hx, List.map_cons, ← c3, val]
            congr 1
            simp only [e128]
          · have hpe : p + (9 + hh) = p' := by omega
            rw [List.flatMap_cons, List.length_append, hcw, seg_length, seg_add, hpe, c4]
          · rw [c5, List.flatMap_cons, List.length_append, hcw, seg_length]
            congr 1; omega
    · rintro ⟨cs, c1, c2, c3, c4, c5⟩
      cases cs with
      | nil => simp at c1
      | cons c cs =>
        obtain ⟨sg, m'⟩ := c
        rw [List.flatMap_cons, List.length_append, seg_add] at c4
        obtain ⟨d1, d2⟩ := List.append_inj c4 (by simp)
        rw [cw_length] at d1 d2
        simp only at d1 d2
        have hm' : m' ≤ 2047 := c2 (sg, m') (by simp)
        -- split the code word
        rw [cw, show 9 + m' / 128 = 1 + (7 + (m' / 128 + 1)) by omega, seg_add, seg_add] at d1
        rw [show seg mem p 1 = [bitAt mem p] from rfl] at d1
        simp only [List.cons_append, List.nil_append, List.append_assoc, List.cons.injEq] at d1
        obtain ⟨d3, d4⟩ := d1
        obtain ⟨d5, d6⟩ := List.append_inj d4 (by simp)
        have hlow : bitsNat (seg mem (p + 1) 7) = m' % 128 := by
          have : seg mem (p + 1) 7 = natBits 7 (m' % 128) := d5
          rw [this, bitsNat_natBits]; omega
        have hsc : scan mem (p + 8) (bitsNat (seg mem (p + 1) 7)) = some (p + 9 + m' / 128, m') := by
          rw [scan_some_iff]
          exact ⟨m' / 128, by omega, by omega, fun _ => hm', d6⟩
        cases hun : unaryLoop mem (acc <<< 8 % 2 ^ 256 ||| rd mem v) accLen (v + 1) (bitsNat (seg mem (p + 1) 7)) with
        | error e =>
          have := (hu.1 e hun).2
          rw [hsc] at this; cases this
        | ok r =>
          obtain ⟨acc', l', v', m''⟩ := r
          obtain ⟨p', hsc', hp', hl', ha'⟩ := hu.2 _ _ _ _ hun
          rw [hsc] at hsc'
          simp only [Option.some.injEq, Prod.mk.injEq] at hsc'
          obtain ⟨rfl, rfl⟩ := hsc'
          have hrec := (ih acc' l' v' _ hp' hl' ha' (cs.map val)).2
            ⟨cs, by simpa using c1, fun c hc => c2 c (by simp [hc]), rfl, by rw [show p + 9 + m' / 128 = p + (9 + m' / 128) by omega]; exact d2,
              by rw [c5, List.flatMap_cons, List.length_append, cw_length]; simp only; congr 1; omega⟩
          simp only [hrec, Except.ok.injEq, Prod.mk.injEq, and_true]
          rw [c3, List.map_cons, val]
          simp only [e128, d3]

theorem seg_bytesBits (mem : Bytes) (offset k : Nat) (h : offset + k ≤ mem.length) :
    seg mem (8 * offset) (8 * k) = bytesBits ((mem.drop offset).take k) := by
  induction k generalizing offset with
  | zero => simp [seg]
  | succ k ih =>
    rw [show 8 * (k + 1) = 8 + 8 * k by omega, seg_add, ← seg_byte, show 8 * offset + 8 = 8 * (offset + 1) by omega,
      ih (offset + 1) (by omega)]
    have hlt : offset < mem.length := by omega
    rw [List.drop_eq_getElem_cons hlt, List.take_succ_cons, bytesBits_cons]
    simp [rd, List.getD_eq_getElem?_getD, hlt]

theorem seg_prefix_iff (mem : Bytes) (offset : Nat) (u : List Bool) (h : u.length ≤ 8 * (mem.length - offset)) (hle : offset ≤ mem.length) :
    seg mem (8 * offset) u.length = u ↔ u <+: bytesBits (mem.drop offset) := by
  have h1 := seg_bytesBits mem offset (mem.length - offset) (by omega)
  rw [List.take_of_length_le (by simp)] at h1
  rw [← h1, show 8 * (mem.length - offset) = u.length + (8 * (mem.length - offset) - u.length) by omega, seg_add]
  constructor
  · intro hs; rw [hs]; exact List.prefix_append _ _
  · rintro ⟨t, ht⟩
    exact (List.append_inj ht (by simp)).1.symm

end Verif.SolSig
