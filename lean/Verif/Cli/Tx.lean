import Verif.Cli.Model
import Verif.Keccak.Props
import Verif.Contract.Props

/-! # C52: the transaction hash -/

namespace Verif.Cli

open Verif

/-- When `transaction_hash` accepts its arguments. -/
def TxInRange (nonce dest value : ℤ) : Prop := (0 ≤ nonce ∧ nonce < 2 ^ 256) ∧ (0 ≤ dest ∧ dest < 2 ^ 160) ∧ (0 ≤ value ∧ value < 2 ^ 256)

/-- The 32-byte big-endian words of a byte string. -/
def wordAt (b : Bytes) (i : ℕ) : ℕ := Hash.Sol.word ((b.drop (32 * i)).take 32)

theorem txEncode_ok (nonce dest value : ℤ) (data : Bytes) (h : TxInRange nonce dest value) :
    txEncode nonce dest data value = .ok (Contract.wordBytes nonce.toNat ++ Contract.wordBytes dest.toNat ++ Contract.wordBytes 128 ++ Contract.wordBytes value.toNat ++
      (Contract.wordBytes data.length ++ (data ++ List.replicate ((32 - data.length % 32) % 32) 0))) := by
  unfold txEncode
  rw [if_neg]
  rintro (h' | h' | h' | h' | h' | h')
  · exact absurd h.1.1 (by omega)
  · exact absurd h.1.2 (by omega)
  · exact absurd h.2.1.1 (by omega)
  · exact absurd h.2.1.2 (by omega)
  · exact absurd h.2.2.1 (by omega)
  · exact absurd h.2.2.2 (by omega)

/-- C52: encoding fails exactly for numbers out of range. -/
theorem C52_range (nonce dest value : ℤ) (data : Bytes) : (∃ b, txEncode nonce dest data value = .ok b) ↔ TxInRange nonce dest value := by
  constructor
  · rintro ⟨b, h⟩
    unfold txEncode at h
    split at h
    · cases h
    · rename_i h'
      simp only [not_or, not_lt, not_le, ge_iff_le] at h'
      exact ⟨⟨h'.1, h'.2.1⟩, ⟨h'.2.2.1, h'.2.2.2.1⟩, h'.2.2.2.2.1, h'.2.2.2.2.2⟩
  · intro h; exact ⟨_, txEncode_ok nonce dest value data h⟩

theorem txEncode_parts (nonce dest value : ℤ) (data b : Bytes) (h : txEncode nonce dest data value = .ok b) :
    b.length = 160 + (data.length + (32 - data.length % 32) % 32) ∧ wordAt b 0 = nonce.toNat ∧ wordAt b 1 = dest.toNat ∧ wordAt b 2 = 128 ∧ wordAt b 3 = value.toNat ∧
    wordAt b 4 = data.length % 2 ^ 256 ∧ (b.drop 160).take data.length = data ∧ b.drop (160 + data.length) = List.replicate ((32 - data.length % 32) % 32) 0 := by
  have hr := (C52_range nonce dest value data).1 ⟨b, h⟩
  rw [txEncode_ok _ _ _ _ hr] at h
  obtain ⟨⟨a1, a2⟩, ⟨a3, a4⟩, a5, a6⟩ := hr
  have hn : nonce.toNat < 2 ^ 256 := by omega
  have ht : dest.toNat < 2 ^ 256 := by omega
  have hv : value.toNat < 2 ^ 256 := by omega
  have hw : ∀ w, Hash.Sol.word (Contract.wordBytes w) = w % 2 ^ 256 := by
    intro w
    rw [← Contract.word_wordBytes (w % 2 ^ 256) (Nat.mod_lt _ (by positivity))]
    congr 1
    unfold Contract.wordBytes
    apply List.map_congr_left
    intro i hi
    have hi := List.mem_range.1 hi
    have e : (2 : ℕ) ^ 256 = 256 ^ (31 - i) * (256 * 256 ^ i) := by
      rw [show (256 : ℕ) = 2 ^ 8 by norm_num, ← pow_mul, ← pow_mul, ← pow_add, ← pow_add]
      congr 1
      omega
    rw [e, Nat.mod_mul_right_div_self, Nat.mod_mul_right_mod]
  have l0 : ∀ w, (Contract.wordBytes w).length = 32 := Contract.length_wordBytes
  simp only [Except.ok.injEq] at h
  have hwn : Hash.Sol.word (Contract.wordBytes nonce.toNat) = nonce.toNat := Contract.word_wordBytes _ hn
  have hwt : Hash.Sol.word (Contract.wordBytes dest.toNat) = dest.toNat := Contract.word_wordBytes _ ht
  have hwv : Hash.Sol.word (Contract.wordBytes value.toNat) = value.toNat := Contract.word_wordBytes _ hv
  have hw8 : Hash.Sol.word (Contract.wordBytes 128) = 128 := Contract.word_wordBytes _ (by norm_num)
  have hwd := hw data.length
  have ln := l0 nonce.toNat
  have lt := l0 dest.toNat
  have l8 := l0 128
  have lv := l0 value.toNat
  have ld := l0 data.length
  generalize Contract.wordBytes nonce.toNat = N at *
  generalize Contract.wordBytes dest.toNat = T at *
  generalize Contract.wordBytes 128 = O at *
  generalize Contract.wordBytes value.toNat = V at *
  generalize Contract.wordBytes data.length = L at *
  generalize hpad : (32 - data.length % 32) % 32 = pad at *
  subst h
  have cut : ∀ (pre x post : Bytes) (i : ℕ), pre.length = 32 * i → x.length = 32 → wordAt (pre ++ (x ++ post)) i = Hash.Sol.word x := by
    intro pre x post i hp hx
    unfold wordAt
    rw [← hp, List.drop_left, ← hx, List.take_left]
  refine ⟨?_, ?_, ?_, ?_, ?_, ?_, ?_, ?_⟩
  · simp only [List.length_append, List.length_replicate]; omega
  · rw [← hwn]
    simp only [List.append_assoc]
    exact cut [] N _ 0 rfl ln
  · rw [← hwt]
    simp only [List.append_assoc]
    exact cut N T _ 1 (by omega) lt
  · rw [← hw8]
    simp only [List.append_assoc]
    rw [← List.append_assoc N]
    exact cut (N ++ T) O _ 2 (by rw [List.length_append]; omega) l8
  · rw [← hwv]
    rw [List.append_assoc (N ++ T ++ O)]
    exact cut (N ++ T ++ O) V _ 3 (by simp only [List.length_append]; omega) lv
  · rw [← hwd]
    exact cut (N ++ T ++ O ++ V) L _ 4 (by simp only [List.length_append]; omega) ld
  · rw [← List.append_assoc (N ++ T ++ O ++ V), List.drop_left' (by simp only [List.length_append]; omega), List.take_left]
  · rw [← List.append_assoc (N ++ T ++ O ++ V), ← List.append_assoc, List.drop_left' (by simp only [List.length_append]; omega)]

/-- C52: different transactions are hashed from different byte strings. -/
theorem C52_injective (nonce dest value nonce' dest' value' : ℤ) (data data' b : Bytes) (h : txEncode nonce dest data value = .ok b) (h' : txEncode nonce' dest' data' value' = .ok b) :
    nonce = nonce' ∧ dest = dest' ∧ data = data' ∧ value = value' := by
  obtain ⟨⟨a1, a2⟩, ⟨a3, a4⟩, a5, a6⟩ := (C52_range nonce dest value data).1 ⟨b, h⟩
  obtain ⟨⟨b1, b2⟩, ⟨b3, b4⟩, b5, b6⟩ := (C52_range nonce' dest' value' data').1 ⟨b, h'⟩
  obtain ⟨e1, e2, e3, _, e5, e6, e7, _⟩ := txEncode_parts _ _ _ _ _ h
  obtain ⟨f1, f2, f3, _, f5, f6, f7, _⟩ := txEncode_parts _ _ _ _ _ h'
  have hl : data.length = data'.length := by omega
  refine ⟨by omega, by omega, ?_, by omega⟩
  rw [← e7, ← f7, hl]

/-- C52: the layout is that of the contract ABI for `(uint256, uint160, bytes, uint256)`: words 0, 1 and 3 are the numbers, word 2 is the offset 128 of the data, word 4 its
length, then the data and zeros up to a whole number of words. -/
theorem C52_layout (nonce dest value : ℤ) (data b : Bytes) (hd : data.length < 2 ^ 256) (h : txEncode nonce dest data value = .ok b) :
    b.length % 32 = 0 ∧ (wordAt b 0 : ℤ) = nonce ∧ (wordAt b 1 : ℤ) = dest ∧ wordAt b 2 = 128 ∧ (wordAt b 3 : ℤ) = value ∧ wordAt b 4 = data.length ∧
      (b.drop 160).take data.length = data ∧ (∀ x ∈ b.drop (160 + data.length), x = 0) ∧ b.length < 160 + data.length + 32 := by
  obtain ⟨⟨a1, a2⟩, ⟨a3, a4⟩, a5, a6⟩ := (C52_range nonce dest value data).1 ⟨b, h⟩
  obtain ⟨e1, e2, e3, e4, e5, e6, e7, e8⟩ := txEncode_parts _ _ _ _ _ h
  refine ⟨by omega, by omega, by omega, e4, by omega, by rw [e6, Nat.mod_eq_of_lt hd], e7, ?_, by omega⟩
  rw [e8]
  intro x hx
  exact List.eq_of_mem_replicate hx

theorem keccak_out (rate ds : ℕ) (hr : 0 < rate) (hr2 : rate ≤ 200) (b : Bytes) (n : ℕ) :
    (Keccak.squeeze Keccak.F1600 rate (Keccak.pad Keccak.F1600 rate ds (Keccak.absorb Keccak.F1600 rate Keccak.Ctx.new b)) n).2 =
      Keccak.Spec.spongeOut Keccak.Spec.F rate ds b 0 n := by
  rw [Keccak.pad_xofAt hr hr2, Keccak.squeeze_xofAt hr hr2 Keccak.F1600_length, Keccak.spongeOut_F Keccak.F1600_spec Keccak.F1600_length]

/-- C52: the hash is Keccak-256 (the sponge of rate 136 with suffix 0x01) of that encoding. -/
theorem C52_hash (nonce dest value : ℤ) (data b : Bytes) (h : txEncode nonce dest data value = .ok b) :
    txHash nonce dest data value = .ok (Keccak.Spec.spongeOut Keccak.Spec.F 136 0x01 b 0 32) := by
  unfold txHash
  rw [h]
  exact congrArg Except.ok (keccak_out 136 1 (by decide) (by decide) b 32)

/-- C52: hence a collision of transaction hashes is a collision of Keccak-256 on different inputs. -/
theorem C52_collision (nonce dest value nonce' dest' value' : ℤ) (data data' d : Bytes) (h : txHash nonce dest data value = .ok d) (h' : txHash nonce' dest' data' value' = .ok d)
    (hne : ¬ (nonce = nonce' ∧ dest = dest' ∧ data = data' ∧ value = value')) :
    ∃ b b', b ≠ b' ∧ Keccak.Spec.spongeOut Keccak.Spec.F 136 0x01 b 0 32 = Keccak.Spec.spongeOut Keccak.Spec.F 136 0x01 b' 0 32 := by
  rcases hb : txEncode nonce dest data value with e | b
  · unfold txHash at h; rw [hb] at h; cases h
  · rcases hb' : txEncode nonce' dest' data' value' with e | b'
    · unfold txHash at h'; rw [hb'] at h'; cases h'
    · rw [C52_hash _ _ _ _ _ hb] at h
      rw [C52_hash _ _ _ _ _ hb'] at h'
      refine ⟨b, b', ?_, ?_⟩
      · rintro rfl
        exact hne (C52_injective _ _ _ _ _ _ _ _ _ hb hb')
      · rw [← h'] at h
        simpa using h

/-- A concrete encoding: nonce 1, address 2, three bytes of data, value 7. -/
example : txEncode 1 2 [0xa, 0xb, 0xc] 7 = .ok (Contract.wordBytes 1 ++ Contract.wordBytes 2 ++ Contract.wordBytes 128 ++ Contract.wordBytes 7 ++ Contract.wordBytes 3 ++
    ([0xa, 0xb, 0xc] ++ List.replicate 29 0)) := by decide +kernel
example : txEncode 1 (2 ^ 160) [] 7 = .error .valueError := by decide +kernel

end Verif.Cli
