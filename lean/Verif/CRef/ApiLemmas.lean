import Verif.CRef.Api
import Verif.CRef.ApiSpec
import Verif.CRef.Recover
import Verif.CRef.CodecProps
import Verif.CRef.ShakeProps

/-! # Lemmas on `nist.c`, `nist16.c` -/

namespace Verif.CRef
open Verif Verif.Hash Verif.CRef.CodecSpec

theorem e512 : (2 : ℕ) ^ 9 = 512 := by norm_num

theorem foldl_inject (c : Prng) (ds : List Bytes) : ds.foldl (fun c d => (prngInject c d).2) c = injectIgnoring c ds := by
  induction ds generalizing c with
  | nil => rfl
  | cons d ds ih => exact ih _

theorem hashPieces_iff (eth : Bool) (pieces : List Bytes) (hb : ∀ p ∈ pieces, IsBytes p) (hm : List Nat) :
    (∃ fuel, hashPieces eth pieces fuel = some hm) ↔
      if eth then IsPoint (streamByte Keccak256 (kept [] pieces)) 512 hm else IsPoint (shakeByte pieces.flatten) 512 hm := by
  unfold hashPieces
  cases eth with
  | true =>
    simp only [if_true, foldl_inject]
    exact C80_hash_to_point 9 pieces hm
  | false =>
    simp only [Bool.false_eq_true, if_false]
    exact C86_hash_to_point 9 pieces hb hm

theorem kept_one (d : Bytes) : kept [] [d] = if d.length ≤ 4096 then d else [] := by
  unfold kept kept
  simp only [List.length_nil, Nat.zero_add, List.nil_append]

/-- Hashing one piece. -/
theorem hash_one (eth : Bool) (d : Bytes) (hb : IsBytes d) (hm : List Nat) : (∃ fuel, hashPieces eth [d] fuel = some hm) ↔ Hashes eth d hm := by
  rw [hashPieces_iff eth [d] (by intro p hp; rw [List.mem_singleton] at hp; rw [hp]; exact hb), kept_one]
  unfold Hashes
  simp only [List.flatten_cons, List.flatten_nil, List.append_nil]

theorem hashes_poly {eth : Bool} {d : Bytes} {hm : List Nat} (h : Hashes eth d hm) : Poly 512 hm := by
  have key : ∀ st, IsPoint st 512 hm → Poly 512 hm := by
    rintro st ⟨T, rfl, h2⟩
    exact ⟨h2, accepted_lt st T⟩
  unfold Hashes at h
  split at h <;> exact key _ h

theorem point_unique {st : Nat → Nat} {n : Nat} {a b : List Nat} (ha : IsPoint st n a) (hb : IsPoint st n b) : a = b := by
  obtain ⟨T, rfl, h2⟩ := ha
  obtain ⟨T', rfl, h3⟩ := hb
  rcases Nat.le_total T T' with h | h
  · exact (accepted_prefix st T T' h).eq_of_length_le (by omega)
  · exact ((accepted_prefix st T' T h).eq_of_length_le (by omega)).symm

theorem hashes_unique {eth : Bool} {d : Bytes} {a b : List Nat} (ha : Hashes eth d a) (hb : Hashes eth d b) : a = b := by
  unfold Hashes at ha hb
  cases eth
  · exact point_unique ha hb
  · exact point_unique ha hb

theorem isBytes_append {a b : Bytes} : IsBytes (a ++ b) ↔ IsBytes a ∧ IsBytes b := by
  unfold IsBytes
  constructor
  · exact fun h => ⟨fun x hx => h x (List.mem_append_left _ hx), fun x hx => h x (List.mem_append_right _ hx)⟩
  · rintro ⟨h1, h2⟩ x hx
    rcases List.mem_append.1 hx with h | h
    · exact h1 x h
    · exact h2 x h

theorem isBytes_cons {a : Nat} {b : Bytes} : IsBytes (a :: b) ↔ a < 256 ∧ IsBytes b := by
  unfold IsBytes
  simp

/-- A signed message, taken apart. -/
theorem sm_split (sm : Bytes) (hb : IsBytes sm) (h42 : ¬ sm.length < 42) (sigLen : Nat) (hs : sigLen = (sm.getD 0 0 <<< 8) ||| sm.getD 1 0) (hl : ¬ sigLen > sm.length - 2 - 40)
    (h1 : ¬ sigLen < 1) :
    ∃ nonce m x e, nonce.length = 40 ∧ e.length + 1 = sigLen ∧ sm = [(e.length + 1) / 256, (e.length + 1) % 256] ++ nonce ++ m ++ x :: e ∧ x < 256 ∧ e.length + 1 < 65536 ∧
      IsBytes nonce ∧ IsBytes m ∧ IsBytes e ∧ m.length = sm.length - 2 - 40 - sigLen := by
  obtain ⟨a, b, r, rfl⟩ : ∃ a b r, sm = a :: b :: r := by
    match sm, h42 with
    | a :: b :: r, _ => exact ⟨a, b, r, rfl⟩
    | [_], h => simp at h
    | [], h => simp at h
  rw [isBytes_cons, isBytes_cons] at hb
  obtain ⟨ha, hbb, hr⟩ := hb
  simp only [List.getD_cons_zero, List.getD_cons_succ] at hs
  rw [word_or _ _ hbb] at hs
  simp only [List.length_cons] at h42 hl ⊢
  obtain ⟨n, hn⟩ : ∃ n, n = r.length - 40 - sigLen := ⟨_, rfl⟩
  have hlen : (r.drop (40 + n)).length = sigLen := by rw [List.length_drop]; omega
  obtain ⟨x, e, hxe⟩ : ∃ x e, r.drop (40 + n) = x :: e := by
    match h : r.drop (40 + n), hlen with
    | x :: e, _ => exact ⟨x, e, rfl⟩
    | [], h' => simp at h'; omega
  have hel : e.length + 1 = sigLen := by rw [← hlen, hxe]; rfl
  have hxb : IsBytes (x :: e) := by
    rw [← hxe]; exact fun y hy => hr y (List.mem_of_mem_drop hy)
  rw [isBytes_cons] at hxb
  refine ⟨r.take 40, (r.drop 40).take n, x, e, by rw [List.length_take]; omega, hel, ?_, hxb.1, by omega, fun y hy => hr y (List.mem_of_mem_take hy),
    fun y hy => hr y (List.mem_of_mem_drop (List.mem_of_mem_take hy)), hxb.2, by rw [List.length_take, List.length_drop]; omega⟩
  rw [hel, hs, show (256 * a + b) / 256 = a by omega, show (256 * a + b) % 256 = b by omega, ← hxe]
  show a :: b :: r = a :: b :: (r.take 40 ++ (r.drop 40).take n ++ r.drop (40 + n))
  congr 2
  rw [← List.drop_drop, List.append_assoc, List.take_append_drop, List.take_append_drop]

/-- What `openWith` computes from the parts of a signed message. -/
theorem open_parts (key : Bytes → Option (List Nat)) (dec : Bytes → Option (List Int × Nat)) (eth : Bool) (fuel : Nat) (nonce m e pk : Bytes) (x : Nat) (H : List Nat)
    (hn : nonce.length = 40) (he : e.length + 1 < 65536) (hpk : pk.getD 0 0 = 9) (hk : key (pk.drop 1) = some H) :
    openWith key dec eth fuel ([(e.length + 1) / 256, (e.length + 1) % 256] ++ nonce ++ m ++ x :: e) pk =
      if x ≠ 0x29 then .fail
      else match dec e with
      | none => .fail
      | some (s, len) =>
        if len ≠ e.length then .fail
        else match hashPieces eth [nonce ++ m] fuel with
          | none => .running
          | some hm => if verifyRaw 9 hm s H then .done m else .fail := by
  obtain ⟨sm, hsm⟩ : ∃ sm, sm = [(e.length + 1) / 256, (e.length + 1) % 256] ++ nonce ++ m ++ x :: e := ⟨_, rfl⟩
  have hlen : sm.length = 2 + 40 + m.length + (e.length + 1) := by rw [hsm]; simp [hn]; omega
  have hsig : (sm.getD 0 0 <<< 8) ||| sm.getD 1 0 = e.length + 1 := by
    have e0 : sm.getD 0 0 = (e.length + 1) / 256 := by rw [hsm]; rfl
    have e1 : sm.getD 1 0 = (e.length + 1) % 256 := by rw [hsm]; rfl
    rw [e0, e1, word_or _ _ (Nat.mod_lt _ (by norm_num))]
    omega
  have hmsg : sm.length - 2 - 40 - (e.length + 1) = m.length := by omega
  have hd2 : (sm.drop 2).take (40 + m.length) = nonce ++ m := by
    have : sm.drop 2 = nonce ++ m ++ x :: e := by rw [hsm]; rfl
    rw [this, List.take_append_of_le_length (by simp [hn]), List.take_of_length_le (by simp [hn])]
  have hd42 : (sm.drop (2 + 40)).take m.length = m := by
    have : sm.drop (2 + 40) = m ++ x :: e := by
      rw [← List.drop_drop, show sm.drop 2 = nonce ++ (m ++ x :: e) by rw [hsm]; simp, List.drop_append_of_le_length (by omega), List.drop_of_length_le (by omega), List.nil_append]
    rw [this, List.take_append_of_le_length (by omega), List.take_of_length_le (by omega)]
  have hes : sm.drop (2 + 40 + m.length) = x :: e := by
    rw [hsm, List.drop_append_of_le_length (by simp [hn]; omega), List.drop_of_length_le (by simp [hn]; omega), List.nil_append]
  rw [← hsm]
  unfold openWith
  simp only [hpk, hk, hsig, hmsg, hd2, hd42, hes, List.getD_cons_zero, List.drop_succ_cons, List.drop_zero, Nat.add_sub_cancel, List.take_length]
  have c1 : ¬ (9 ≠ 0x00 + 9) := by omega
  have c2 : ¬ sm.length < 2 + 40 := by omega
  have c3 : ¬ (e.length + 1 > sm.length - 2 - 40) := by omega
  have c4 : ¬ (e.length + 1 < 1) := by omega
  simp only [c1, c2, c3, c4, if_false, false_or]
  rfl

/-- `openWith` returns `m` exactly on a well-formed signed message with an accepted signature. -/
theorem open_done (key : Bytes → Option (List Nat)) (dec : Bytes → Option (List Int × Nat)) (eth : Bool) (sm pk m : Bytes) (hb : IsBytes sm) :
    (∃ fuel, openWith key dec eth fuel sm pk = .done m) ↔ pk.getD 0 0 = 9 ∧ ∃ H, key (pk.drop 1) = some H ∧ ∃ nonce e s hm, nonce.length = 40 ∧ e.length + 1 < 65536 ∧
      sm = [(e.length + 1) / 256, (e.length + 1) % 256] ++ nonce ++ m ++ 0x29 :: e ∧ dec e = some (s, e.length) ∧ Hashes eth (nonce ++ m) hm ∧ verifyRaw 9 hm s H = true := by
  constructor
  · rintro ⟨fuel, h⟩
    have hpk : pk.getD 0 0 = 9 := by
      by_contra hne
      unfold openWith at h
      rw [if_pos (by simpa using hne)] at h
      cases h
    cases hk : key (pk.drop 1) with
    | none =>
      unfold openWith at h
      rw [if_neg (by simpa using hpk), hk] at h
      cases h
    | some H =>
      refine ⟨hpk, H, rfl, ?_⟩
      by_cases c2 : sm.length < 2 + 40
      · unfold openWith at h
        simp only [hpk, hk, c2, if_true] at h
        simp at h
      by_cases c3 : (sm.getD 0 0 <<< 8 ||| sm.getD 1 0) > sm.length - 2 - 40
      · unfold openWith at h
        simp only [hpk, hk, c2, c3, if_true, if_false] at h
        simp at h
      by_cases c4 : (sm.getD 0 0 <<< 8 ||| sm.getD 1 0) < 1
      · unfold openWith at h
        simp only [hpk, hk, c2, c3, c4, if_true, if_false, true_or] at h
        simp at h
      obtain ⟨nonce, m', x, e, p1, p2, p3, p4, p5, p6, p7, p8, p9⟩ := sm_split sm hb c2 _ rfl c3 c4
      rw [p3, open_parts key dec eth fuel nonce m' e pk x H p1 p5 hpk hk] at h
      by_cases hx : x = 0x29
      · subst hx
        rw [if_neg (by simp)] at h
        cases hd : dec e with
        | none => rw [hd] at h; cases h
        | some sl =>
          obtain ⟨s, len⟩ := sl
          rw [hd] at h
          simp only at h
          by_cases hle : len = e.length
          · subst hle
            rw [if_neg (by simp)] at h
            cases hh : hashPieces eth [nonce ++ m'] fuel with
            | none => rw [hh] at h; cases h
            | some hm =>
              rw [hh] at h
              simp only at h
              by_cases hv : verifyRaw 9 hm s H = true
              · rw [if_pos hv] at h
                obtain rfl : m' = m := by simpa using h
                exact ⟨nonce, e, s, hm, p1, p5, p3, hd, (hash_one eth _ (isBytes_append.2 ⟨p6, p7⟩) hm).1 ⟨fuel, hh⟩, hv⟩
              · rw [if_neg hv] at h; cases h
          · rw [if_pos hle] at h; cases h
      · rw [if_pos hx] at h; cases h
  · rintro ⟨hpk, H, hk, nonce, e, s, hm, p1, p5, p3, hd, hh, hv⟩
    rw [p3] at hb
    simp only [isBytes_append] at hb
    obtain ⟨fuel, hf⟩ := (hash_one eth (nonce ++ m) (isBytes_append.2 ⟨hb.1.1.2, hb.1.2⟩) hm).2 hh
    refine ⟨fuel, ?_⟩
    rw [p3, open_parts key dec eth fuel nonce m e pk 0x29 H p1 p5 hpk hk, if_neg (by simp), hd]
    simp only
    rw [if_neg (by simp), hf]
    simp only
    rw [if_pos hv]

end Verif.CRef
