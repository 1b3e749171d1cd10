import Verif.Contract.Boundary

/-! # C38: exact acceptance conditions of the byte-level entry points -/

namespace Verif.Contract

/-- Big-endian value of the 32 bytes of `b` at offset `i`. -/
def wordAt (b : Bytes) (i : ℕ) : ℕ := ((b.drop i).take 32).foldl (fun acc x => acc * 256 + x) 0

/-- **C38**: `falcon_core` rejects a hash of another length than 512 and a signature of another length than 32 words. -/
theorem C38_core_lengths (fmp : ℕ) (s2 ntth hashed : List ℕ) (h : falconCore fmp s2 ntth hashed = true) : hashed.length = 512 ∧ s2.length = 32 := by
  unfold falconCore at h
  split at h
  · cases h
  · split at h
    · cases h
    · next h1 h2 => exact ⟨Decidable.not_not.1 h1, Decidable.not_not.1 h2⟩

theorem wordAt_eq (b : Bytes) (i : ℕ) : Hash.Sol.word ((b.drop i).take 32) = wordAt b i := rfl

/-- **C38**: the exact set of byte strings from which a key is read: offset and length are 64-bit, the length word and all elements lie within the data; the result is the
elements in order. -/
theorem C38_abi_iff (data : Bytes) (ws : List ℕ) :
    abiDecode data = .ok ws ↔ 32 ≤ data.length ∧ wordAt data 0 < 2 ^ 64 ∧ wordAt data 0 + 32 ≤ data.length ∧ wordAt data (wordAt data 0) < 2 ^ 64 ∧
      wordAt data 0 + 32 + 32 * wordAt data (wordAt data 0) ≤ data.length ∧ ws.length = wordAt data (wordAt data 0) ∧
      ∀ i, i < ws.length → ws[i]? = some (wordAt data (wordAt data 0 + 32 + 32 * i)) := by
  have e0 : Hash.Sol.word (data.take 32) = wordAt data 0 := rfl
  unfold abiDecode
  simp only [e0, wordAt_eq]
  generalize wordAt data 0 = off
  generalize hl : wordAt data off = len
  by_cases h1 : data.length < 32
  · rw [if_pos h1]; constructor
    · intro h; cases h
    · intro h; omega
  rw [if_neg h1]
  by_cases h2 : off > 0xffffffffffffffff
  · rw [if_pos h2]; constructor
    · intro h; cases h
    · intro h; omega
  rw [if_neg h2]
  by_cases h3 : off + 31 < data.length
  swap
  · rw [if_pos h3]; constructor
    · intro h; cases h
    · intro h; omega
  rw [if_neg (by simpa using h3)]
  by_cases h4 : len > 0xffffffffffffffff
  · rw [if_pos h4]; constructor
    · intro h; cases h
    · intro h; omega
  rw [if_neg h4]
  by_cases h5 : off + 32 + 32 * len > data.length
  · rw [if_pos h5]; constructor
    · intro h; cases h
    · intro h; omega
  rw [if_neg h5]
  have hg : ∀ i, i < len → (wordsAt data (off + 32) len)[i]? = some (wordAt data (off + 32 + 32 * i)) := by
    intro i hi
    unfold wordsAt
    rw [List.getElem?_map, List.getElem?_range hi]
    rfl
  have hlen : (wordsAt data (off + 32) len).length = len := by unfold wordsAt; rw [List.length_map, List.length_range]
  constructor
  · intro h
    cases h
    exact ⟨by omega, by omega, by omega, by omega, by omega, hlen, fun i hi => hg i (by omega)⟩
  · rintro ⟨_, _, _, _, _, hwl, hw⟩
    congr 1
    apply List.ext_getElem?
    intro i
    by_cases hi : i < len
    · rw [hg i hi, hw i (by omega)]
    · rw [List.getElem?_eq_none (by omega), List.getElem?_eq_none (by omega)]

/-- **C38**: `_packSignature` fails exactly for salts of fewer than 40 bytes. -/
theorem C38_pack_error (salt : Bytes) (s2 : List ℕ) : (∃ e, packSignature salt s2 = .error e) ↔ salt.length < 40 := by
  unfold packSignature
  split
  · next h => exact ⟨fun _ => h, fun _ => ⟨_, rfl⟩⟩
  · next h => exact ⟨fun ⟨e, he⟩ => (by cases he), fun h' => absurd h' h⟩

/-- **C38**: the packed signature has `40 + 32·|s2|` bytes: the first 40 bytes of the salt, then the words in order. -/
theorem C38_pack_layout (salt : Bytes) (s2 : List ℕ) (hw : ∀ w ∈ s2, w < 2 ^ 256) (sig : Bytes) (h : packSignature salt s2 = .ok sig) :
    sig.length = 40 + 32 * s2.length ∧ sig.take 40 = salt.take 40 ∧ ∀ i, i < s2.length → s2[i]? = some (wordAt sig (40 + 32 * i)) := by
  unfold packSignature at h
  split at h
  · cases h
  next hs =>
  cases h
  have hl : (salt.take 40).length = 40 := by rw [List.length_take]; omega
  refine ⟨by rw [List.length_append, length_flat, hl], ?_, ?_⟩
  · rw [List.take_append_of_le_length (by omega), List.take_take]; rfl
  · intro i hi
    have := wordsAt_flat (salt.take 40) [] s2 hw
    rw [hl, List.append_nil] at this
    have h2 := congrArg (fun l => l[i]?) this
    rw [← h2]
    unfold wordsAt
    rw [List.getElem?_map, List.getElem?_range hi]
    rfl

example : (packSignature (List.replicate 39 7) []).toOption = none := by decide
example : (packSignature (List.replicate 41 7) [5]).toOption.map List.length = some 72 := by decide

end Verif.Contract
