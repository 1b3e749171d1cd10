import Verif.Storage.Model
import Verif.Contract.Abi
import Mathlib.Tactic.Ring

/-! # C54, C55: stored keys and the storage of the NTT contract -/

namespace Verif.Storage

open Verif Verif.Packing

/-! ## The creation code -/

theorem length_slice (b : Bytes) (off n : ℕ) : (slice b off n).length = n := by simp [slice]

theorem slice_eq (b : Bytes) (off n : ℕ) (h : off + n ≤ b.length) : slice b off n = (b.drop off).take n := by
  apply List.ext_getElem?
  intro i
  unfold slice
  rw [List.getElem?_map]
  by_cases hi : i < n
  · rw [List.getElem?_range hi, List.getElem?_take_of_lt hi, List.getElem?_drop]
    simp only [Option.map_some, List.getD]
    rw [List.getElem?_eq_getElem (by omega)]
    rfl
  · rw [List.getElem?_eq_none (by simpa using hi), List.getElem?_eq_none (by rw [List.length_take]; omega)]
    rfl

theorem slice_self (b : Bytes) : slice b 0 b.length = b := by
  rw [slice_eq b 0 b.length (by omega)]
  simp

theorem memWrite_nil (src : Bytes) : memWrite [] 0 src = src := by
  unfold memWrite
  have : max ([] : Bytes).length (0 + src.length) = src.length := by simp
  rw [this]
  apply List.ext_getElem?
  intro i
  rw [List.getElem?_map]
  by_cases hi : i < src.length
  · rw [List.getElem?_range hi]
    simp [hi, List.getD]
  · rw [List.getElem?_eq_none (by simpa using hi), List.getElem?_eq_none (by omega)]
    rfl

/-- The value of the four length bytes. -/
theorem word_beBytes4 (x : ℕ) (h : x < 2 ^ 32) : Hash.Sol.word (beBytes 4 x) = x := by
  simp only [beBytes, Hash.Sol.word, show List.range 4 = [0, 1, 2, 3] from rfl, List.map, List.foldl]
  norm_num
  omega

/-- Running the creation code returns the first `len mod 2^32` bytes of the code. -/
theorem execInit_creationCode (code : Bytes) : execInit (creationCodeFor code) = some (code.take (code.length % 2 ^ 32)) := by
  have hw : Hash.Sol.word (beBytes 4 (code.length % 2 ^ 32)) = code.length % 2 ^ 32 := word_beBytes4 _ (Nat.mod_lt _ (by norm_num))
  have hle : code.length % 2 ^ 32 ≤ code.length := Nat.mod_le _ _
  unfold execInit creationCodeFor
  generalize hn : code.length % 2 ^ 32 = n at *
  obtain ⟨b0, b1, b2, b3, hb⟩ : ∃ b0 b1 b2 b3, beBytes 4 n = [b0, b1, b2, b3] := ⟨_, _, _, _, rfl⟩
  rw [hb] at hw ⊢
  simp only [List.cons_append, List.nil_append, List.length_cons]
  have hs : slice (0x63 :: b0 :: b1 :: b2 :: b3 :: 0x80 :: 0x60 :: 0x0e :: 0x60 :: 0x00 :: 0x39 :: 0x60 :: 0x00 :: 0xf3 :: code) 14 n = code.take n := by
    rw [slice_eq _ _ _ (by simp only [List.length_cons]; omega)]
    rfl
  have hs4 : slice (0x63 :: b0 :: b1 :: b2 :: b3 :: 0x80 :: 0x60 :: 0x0e :: 0x60 :: 0x00 :: 0x39 :: 0x60 :: 0x00 :: 0xf3 :: code) 1 4 = [b0, b1, b2, b3] := rfl
  have e1 : slice (0x63 :: b0 :: b1 :: b2 :: b3 :: 0x80 :: 0x60 :: 0x0e :: 0x60 :: 0x00 :: 0x39 :: 0x60 :: 0x00 :: 0xf3 :: code) 7 1 = [0x0e] := rfl
  have e2 : slice (0x63 :: b0 :: b1 :: b2 :: b3 :: 0x80 :: 0x60 :: 0x0e :: 0x60 :: 0x00 :: 0x39 :: 0x60 :: 0x00 :: 0xf3 :: code) 9 1 = [0x00] := rfl
  have e3 : slice (0x63 :: b0 :: b1 :: b2 :: b3 :: 0x80 :: 0x60 :: 0x0e :: 0x60 :: 0x00 :: 0x39 :: 0x60 :: 0x00 :: 0xf3 :: code) 12 1 = [0x00] := rfl
  generalize hC : (0x63 :: b0 :: b1 :: b2 :: b3 :: 0x80 :: 0x60 :: 0x0e :: 0x60 :: 0x00 :: 0x39 :: 0x60 :: 0x00 :: 0xf3 :: code : Bytes) = C at *
  have g0 : C[0]? = some 0x63 := by rw [← hC]; rfl
  have g5 : C[5]? = some 0x80 := by rw [← hC]; rfl
  have g6 : C[6]? = some 0x60 := by rw [← hC]; rfl
  have g8 : C[8]? = some 0x60 := by rw [← hC]; rfl
  have g10 : C[10]? = some 0x39 := by rw [← hC]; rfl
  have g11 : C[11]? = some 0x60 := by rw [← hC]; rfl
  have g13 : C[13]? = some 0xf3 := by rw [← hC]; rfl
  have w1 : Hash.Sol.word [0x0e] = 14 := rfl
  have w2 : Hash.Sol.word [0x00] = 0 := rfl
  have hl : (code.take n).length = n := by rw [List.length_take]; omega
  have hfin : slice (memWrite [] 0 (code.take n)) 0 n = code.take n := by
    rw [memWrite_nil]
    have := slice_self (code.take n)
    rwa [hl] at this
  simp [run, step, g0, g5, g6, g8, g10, g11, g13, hs4, hw, e1, e2, e3, w1, w2, hs, hfin]

/-- **C55**: the creation code built by the library (and by the deployment script) returns exactly the given code, for every code the chain admits. -/
theorem C55_creation_code (code : Bytes) (h : code.length < 2 ^ 32) : execInit (creationCodeFor code) = some code := by
  rw [execInit_creationCode, Nat.mod_eq_of_lt h, List.take_length]

example : execInit (creationCodeFor [0, 1, 2, 0xf3]) = some [0, 1, 2, 0xf3] := by decide

theorem length_packWords (ws : List ℕ) : (NTT.packWords ws).length = 32 * ws.length := by
  unfold NTT.packWords
  induction ws with
  | nil => rfl
  | cons w ws ih => rw [List.flatMap_cons, List.length_append, ih, List.length_map, List.length_range, List.length_cons]; omega

/-- **C62**: what the deployment script's creation code leaves at the table address is the packed table itself, for every polynomial of at most `2^26` words. -/
theorem C62_deployed_code (ws : List ℕ) (h : ws.length ≤ 2 ^ 26) : execInit (creationCodeFor (NTT.packWords ws)) = some (NTT.packWords ws) :=
  C55_creation_code _ (by rw [length_packWords]; omega)

theorem length_creationCode (code : Bytes) : (creationCodeFor code).length = code.length + 14 := by
  simp [creationCodeFor, beBytes]; omega

/-! ## Write and read -/

theorem create_eq (addrOf : ℕ → ℕ) (w : World) (data : Bytes) :
    create addrOf w (creationCodeFor ([0] ++ data)) = if data.length + 1 ≤ 24576 ∧ w.code (addrOf w.nonce) = [] then
      (⟨fun x => if x = addrOf w.nonce then 0 :: data else w.code x, w.nonce + 1⟩, addrOf w.nonce) else (⟨w.code, w.nonce + 1⟩, 0) := by
  unfold create
  simp only []
  rw [length_creationCode]
  have hlen : ([0] ++ data).length = data.length + 1 := by rw [List.length_append, List.length_singleton, Nat.add_comm]
  rw [hlen]
  by_cases hc : w.code (addrOf w.nonce) = []
  swap
  · rw [if_pos hc, if_neg (show ¬ (data.length + 1 ≤ 24576 ∧ w.code (addrOf w.nonce) = []) from fun h => hc h.2)]
    split <;> rfl
  rw [if_neg (not_not.2 hc)]
  by_cases hl : data.length + 1 ≤ 24576
  · rw [if_neg (by unfold maxInitSize; omega), C55_creation_code _ (by rw [hlen]; omega), if_pos ⟨hl, hc⟩]
    simp only []
    rw [if_neg (by rw [hlen]; unfold maxCodeSize; omega), if_neg (by simp)]
    rfl
  · rw [if_neg (show ¬ (data.length + 1 ≤ 24576 ∧ w.code (addrOf w.nonce) = []) from fun h => hl h.1)]
    split
    · rfl
    · next hi =>
      unfold maxInitSize at hi
      rw [C55_creation_code _ (by rw [hlen]; omega)]
      simp only []
      rw [if_pos (by rw [hlen]; unfold maxCodeSize; omega)]

/-- Writing succeeds exactly when the data has at most 24575 bytes and the next address is non-zero and unused. -/
theorem write_eq (addrOf : ℕ → ℕ) (w : World) (data : Bytes) :
    write addrOf w data = if data.length + 1 ≤ 24576 ∧ addrOf w.nonce ≠ 0 ∧ w.code (addrOf w.nonce) = [] then
      (⟨fun x => if x = addrOf w.nonce then 0 :: data else w.code x, w.nonce + 1⟩, .ok (addrOf w.nonce)) else (w, .error (.revert "WriteError")) := by
  unfold write
  simp only []
  rw [create_eq]
  by_cases hc : data.length + 1 ≤ 24576 ∧ w.code (addrOf w.nonce) = []
  · rw [if_pos hc]
    by_cases h0 : addrOf w.nonce = 0
    · rw [if_pos h0, if_neg (fun h => h.2.1 h0)]
    · rw [if_neg h0, if_pos ⟨hc.1, h0, hc.2⟩]
  · rw [if_neg hc, if_pos rfl, if_neg (fun h => hc ⟨h.1, h.2.2⟩)]

theorem checkedAdd_ok (a : ℕ) (h : a + 1 < 2 ^ 256) : checkedAdd a 1 = .ok (a + 1) := if_pos h
theorem checkedAdd_err (a : ℕ) (h : ¬ a + 1 < 2 ^ 256) : checkedAdd a 1 = .error (.revert "panic") := if_neg h

/-- **C55** (round trip): reading at the address returned by a write gives back exactly the bytes written; no other account is changed, and the write went to an account that had no code. -/
theorem C55_write_read (addrOf : ℕ → ℕ) (w w' : World) (data : Bytes) (p : ℕ) (h : write addrOf w data = (w', .ok p)) :
    read w' p = .ok data ∧ w.code p = [] ∧ (∀ x, x ≠ p → w'.code x = w.code x) ∧ p ≠ 0 ∧ data.length < 24576 := by
  rw [write_eq] at h
  split at h
  · next hc =>
    obtain ⟨hl, h0, he⟩ := hc
    cases h
    refine ⟨?_, he, fun x hx => if_neg hx, h0, by omega⟩
    unfold read codeAt
    simp only [if_true, List.length_cons, maxWord, W]
    rw [if_neg (by omega), if_neg (by omega), if_neg (by omega)]
    have : (if data.length + 1 - 1 < 2 ^ 256 - 1 - 1 then data.length + 1 - 1 else 2 ^ 256 - 1 - 1) = data.length := by
      rw [if_pos (by omega)]; omega
    rw [this, slice_eq _ _ _ (by simp only [List.length_cons]; omega)]
    simp
  · cases h

/-- **C55**: a write succeeds for every data of at most 24575 bytes when the next address is usable, and fails with `WriteError`, changing nothing, for all longer data. -/
theorem C55_write_succeeds (addrOf : ℕ → ℕ) (w : World) (data : Bytes) (hl : data.length ≤ 24575) (h0 : addrOf w.nonce ≠ 0) (hc : w.code (addrOf w.nonce) = []) :
    (write addrOf w data).2 = .ok (addrOf w.nonce) := by
  rw [write_eq, if_pos ⟨by omega, h0, hc⟩]

theorem C55_write_too_long (addrOf : ℕ → ℕ) (w : World) (data : Bytes) (hl : 24576 ≤ data.length) :
    write addrOf w data = (w, .error (.revert "WriteError")) := by
  rw [write_eq, if_neg (fun h => by omega)]

/-- A failed write changes nothing. -/
theorem C55_write_error (addrOf : ℕ → ℕ) (w w' : World) (data : Bytes) (e : Err) (h : write addrOf w data = (w', .error e)) : w' = w ∧ e = .revert "WriteError" := by
  rw [write_eq] at h
  split at h
  · cases h
  · cases h; exact ⟨rfl, rfl⟩

/-- What may happen on the chain after a write: further writes through the library, and creations of other contracts with any init code at any address. -/
inductive Event where
  | write (data : Bytes)
  | create (addr : ℕ) (init : Bytes)

/-- The effect of an event. -/
def event (addrOf : ℕ → ℕ) (w : World) : Event → World
  | .write data => (write addrOf w data).1
  | .create a init => (create (fun _ => a) w init).1

theorem create_keeps (addrOf : ℕ → ℕ) (w : World) (init : Bytes) (p : ℕ) (h : w.code p ≠ []) : (create addrOf w init).1.code p = w.code p := by
  unfold create
  simp only []
  split
  · rfl
  · split
    · rfl
    · next hc =>
      split
      · rfl
      · split
        · rfl
        · split
          · rfl
          · have : p ≠ addrOf w.nonce := fun e => h (e ▸ not_not.1 hc)
            exact if_neg this

theorem event_keeps (addrOf : ℕ → ℕ) (w : World) (e : Event) (p : ℕ) (h : w.code p ≠ []) : (event addrOf w e).code p = w.code p := by
  cases e with
  | write data =>
    unfold event write
    simp only []
    split
    · rfl
    · exact create_keeps _ _ _ _ h
  | create a init => exact create_keeps _ _ _ _ h

/-- **C55** (for ever): after any history of further writes and contract creations the pointer still reads the bytes written. -/
theorem C55_stable (addrOf : ℕ → ℕ) (w w' : World) (data : Bytes) (p : ℕ) (h : write addrOf w data = (w', .ok p)) (es : List Event) :
    read (es.foldl (event addrOf) w') p = .ok data := by
  have hr := (C55_write_read addrOf w w' data p h).1
  have hne : w'.code p ≠ [] := by
    rw [write_eq] at h
    split at h
    · cases h; simp
    · cases h
  have : ∀ (es : List Event) (v : World), v.code p ≠ [] → (es.foldl (event addrOf) v).code p = v.code p := by
    intro es
    induction es with
    | nil => intro v _; rfl
    | cons e es ih =>
      intro v hv
      have h1 := event_keeps addrOf v e p hv
      rw [List.foldl_cons, ih _ (by rw [h1]; exact hv), h1]
  unfold read
  rw [this es w' hne]
  exact hr

/-- The code at the pointer begins with `STOP`, so calling it does nothing. -/
theorem C55_inert (addrOf : ℕ → ℕ) (w w' : World) (data : Bytes) (p : ℕ) (h : write addrOf w data = (w', .ok p)) :
    step (w'.code p) ⟨0, [], []⟩ = .done [] := by
  rw [write_eq] at h
  split at h
  · cases h
    simp [step]
  · cases h

/-- **C55** (ranges): reading `[start, stop)` gives that slice of the data, cut at its end; a start beyond the end gives nothing; `stop < start` reverts when `start` is within the data;
the two extreme words make the checked addition panic. -/
theorem C55_read_range (addrOf : ℕ → ℕ) (w w' : World) (data : Bytes) (p : ℕ) (h : write addrOf w data = (w', .ok p)) (start stop : ℕ) :
    readRange w' p start stop =
      if start + 1 ≥ 2 ^ 256 ∨ stop + 1 ≥ 2 ^ 256 then .error (.revert "panic")
      else if data.length < start then .ok []
      else if stop < start then .error (.revert "InvalidCodeAtRange")
      else .ok ((data.drop start).take (stop - start)) := by
  rw [write_eq] at h
  split at h
  swap
  · cases h
  cases h
  unfold readRange
  by_cases h1 : start + 1 < 2 ^ 256
  swap
  · rw [checkedAdd_err _ h1, if_pos (Or.inl (by omega))]
  by_cases h2 : stop + 1 < 2 ^ 256
  swap
  · rw [checkedAdd_ok _ h1, checkedAdd_err _ h2, if_pos (Or.inr (by omega))]
  rw [checkedAdd_ok _ h1, checkedAdd_ok _ h2, if_neg (by omega)]
  unfold codeAt
  simp only [if_true, List.length_cons]
  rw [if_neg (by omega)]
  by_cases h3 : data.length < start
  · rw [if_pos (by omega), if_pos h3]
  rw [if_neg (by omega), if_neg h3]
  by_cases h4 : stop < start
  · rw [if_pos (by omega), if_pos h4]
  rw [if_neg (by omega), if_neg h4]
  congr 1
  have hm : (if data.length + 1 - (start + 1) < stop + 1 - (start + 1) then data.length + 1 - (start + 1) else stop + 1 - (start + 1)) = min (data.length - start) (stop - start) := by
    split <;> omega
  rw [hm, slice_eq _ _ _ (by simp only [List.length_cons]; omega), List.drop_succ_cons]
  apply List.ext_getElem?
  intro i
  rw [List.getElem?_take, List.getElem?_take, List.getElem?_drop]
  by_cases hi : i < stop - start
  · rw [if_pos hi]
    by_cases hj : i < data.length - start
    · rw [if_pos (by omega)]
    · rw [if_neg (by omega), List.getElem?_eq_none (by omega)]
  · rw [if_neg hi, if_neg (by omega)]

/-- **C55** (suffixes). -/
theorem C55_read_from (addrOf : ℕ → ℕ) (w w' : World) (data : Bytes) (p : ℕ) (h : write addrOf w data = (w', .ok p)) (start : ℕ) :
    readFrom w' p start = if start + 1 ≥ 2 ^ 256 then .error (.revert "panic") else .ok (data.drop start) := by
  have hl := (C55_write_read addrOf w w' data p h).2.2.2.2
  rw [write_eq] at h
  split at h
  swap
  · cases h
  cases h
  unfold readFrom
  by_cases h1 : start + 1 < 2 ^ 256
  swap
  · rw [checkedAdd_err _ h1, if_pos (by omega)]
  rw [checkedAdd_ok _ h1, if_neg (by omega)]
  unfold codeAt
  simp only [if_true, List.length_cons, maxWord, W]
  rw [if_neg (by omega)]
  by_cases h3 : data.length < start
  · rw [if_pos (by omega), List.drop_eq_nil_of_le (by omega)]
  rw [if_neg (by omega), if_neg (by omega)]
  congr 1
  have hm : (if data.length + 1 - (start + 1) < 2 ^ 256 - 1 - (start + 1) then data.length + 1 - (start + 1) else 2 ^ 256 - 1 - (start + 1)) = data.length - start := by
    split <;> omega
  rw [hm, slice_eq _ _ _ (by simp only [List.length_cons]; omega), List.drop_succ_cons, List.take_of_length_le (by rw [List.length_drop])]

/-- An address without code reads as nothing. -/
theorem C55_unwritten (w : World) (p : ℕ) (h : w.code p = []) : read w p = .ok [] ∧ (∀ s, s + 1 < 2 ^ 256 → readFrom w p s = .ok []) := by
  unfold read readFrom
  rw [h]
  refine ⟨rfl, fun s hs => ?_⟩
  rw [checkedAdd_ok _ hs]
  rfl

/-- A world with no code, creations numbered from 1. -/
def empty : World := ⟨fun _ => [], 0⟩

example : ∃ w', write (· + 1) empty [7, 8, 9] = (w', .ok 1) ∧ read w' 1 = .ok [7, 8, 9] ∧ readRange w' 1 1 2 = .ok [8] ∧ readRange w' 1 2 1 = .error (.revert "InvalidCodeAtRange") := by
  refine ⟨_, rfl, ?_⟩
  decide +kernel

/-! ## Stored keys -/

theorem word_append (a b : Bytes) : Hash.Sol.word (a ++ b) = Hash.Sol.word a * 256 ^ b.length + Hash.Sol.word b := by
  unfold Hash.Sol.word
  rw [List.foldl_append]
  generalize a.foldl (fun a x => a * 256 + x) 0 = u
  induction b using List.reverseRecOn with
  | nil => simp
  | append_singleton b x ih => simp only [List.foldl_append, List.foldl_cons, List.foldl_nil, List.length_append, List.length_singleton, ih, pow_succ]; ring

theorem word_lt (b : Bytes) (h : IsBytes b) : Hash.Sol.word b < 256 ^ b.length := by
  induction b using List.reverseRecOn with
  | nil => simp [Hash.Sol.word]
  | append_singleton b x ih =>
    have hx : x < 256 := h x (by simp)
    have hb := ih (fun y hy => h y (by simp [hy]))
    rw [word_append, List.length_append, List.length_singleton, pow_one, pow_succ]
    have : Hash.Sol.word [x] = x := by simp [Hash.Sol.word]
    rw [this]
    omega

theorem length_beBytes (n x : ℕ) : (beBytes n x).length = n := by simp [beBytes]

theorem isBytes_beBytes (n x : ℕ) : IsBytes (beBytes n x) := by
  intro y hy
  unfold beBytes at hy
  rw [List.mem_map] at hy
  obtain ⟨i, _, rfl⟩ := hy
  exact Nat.mod_lt _ (by norm_num)

theorem beBytes_succ (n x : ℕ) : beBytes (n + 1) x = beBytes n (x / 256) ++ [x % 256] := by
  unfold beBytes
  rw [List.range_succ, List.map_append]
  congr 1
  · apply List.map_congr_left
    intro i hi
    have hi' : i < n := List.mem_range.1 hi
    rw [Nat.div_div_eq_div_mul, ← pow_succ']
    congr 3
    omega
  · simp

theorem word_beBytes (n : ℕ) : ∀ x, x < 256 ^ n → Hash.Sol.word (beBytes n x) = x := by
  induction n with
  | zero => intro x h; simp at h; subst h; rfl
  | succ n ih =>
    intro x h
    rw [beBytes_succ, word_append, ih (x / 256) (by rw [pow_succ] at h; exact Nat.div_lt_of_lt_mul (by omega))]
    simp [Hash.Sol.word]
    omega

/-- The address read by the verifier is made of the 20 bytes at the start of `_pubkey`, whatever follows them. -/
theorem keyAddress_eq (pre addr rest : Bytes) (ha : addr.length = 20) (hr : IsBytes rest) : keyAddress (pre ++ addr ++ rest) pre.length = Hash.Sol.word addr := by
  have hs : slice (pre ++ addr ++ rest) pre.length 32 = addr ++ slice rest 0 12 := by
    apply List.ext_getElem?
    intro i
    unfold slice
    rw [List.getElem?_map]
    by_cases hi : i < 20
    · rw [List.getElem?_range (by omega), List.getElem?_append_left (by omega)]
      simp only [Option.map_some, List.getD]
      rw [List.append_assoc, List.getElem?_append_right (by omega), Nat.add_sub_cancel_left, List.getElem?_append_left (by omega), List.getElem?_eq_getElem (by omega)]
      rfl
    · by_cases hj : i < 32
      · rw [List.getElem?_range hj, List.getElem?_append_right (by omega), List.getElem?_map, List.getElem?_range (by omega)]
        simp only [Option.map_some, List.getD]
        rw [List.append_assoc, List.getElem?_append_right (by omega), Nat.add_sub_cancel_left, List.getElem?_append_right (by omega), Nat.zero_add]
      · rw [List.getElem?_eq_none (by simpa using hj), List.getElem?_eq_none (by rw [List.length_append, List.length_map, List.length_range]; omega)]
        rfl
  have hb : IsBytes (slice rest 0 12) := by
    intro y hy
    unfold slice at hy
    rw [List.mem_map] at hy
    obtain ⟨i, _, rfl⟩ := hy
    simp only [List.getD]
    cases e : rest[0 + i]? with
    | none => simp
    | some v => exact hr v (List.mem_of_getElem? e)
  have hl := word_lt _ hb
  rw [length_slice] at hl
  unfold keyAddress
  rw [hs, word_append, length_slice, Nat.shiftRight_eq_div_pow]
  have : (256 : ℕ) ^ 12 = 2 ^ 96 := by norm_num
  rw [this] at hl ⊢
  rw [Nat.add_comm, Nat.add_mul_div_right _ _ (by norm_num), Nat.div_eq_of_lt hl, Nat.zero_add]

/-- **C55** (keys): when `setKey` returns `pk` for the ABI encoding of a key, then for ever after — whatever is written or created in between, and whatever bytes follow `pk`
in the calldata — the byte-level `verify` with `pk` and a packed signature answers exactly what `verify` answers with that key. -/
theorem C55_key (hp : Bytes → Bytes → ℕ → Option (List ℕ)) (fmp : ℕ) (addrOf : ℕ → ℕ) (ha : ∀ k, addrOf k < 2 ^ 160) (w w' : World) (ntth : List ℕ) (hk : ∀ x ∈ ntth, x < 2 ^ 256)
    (pk : Bytes) (h : setKey addrOf w (Contract.abiEncode ntth) = (w', .ok pk)) (es : List Event) (pre rest : Bytes) (hr : IsBytes rest)
    (digest salt : Bytes) (s2 : List ℕ) (hs : salt.length = 40) (h2 : s2.length = 32) (hw : ∀ x ∈ s2, x < 2 ^ 256) (fuel : ℕ) :
    pk.length = 20 ∧ ∃ sig, Contract.packSignature salt s2 = .ok sig ∧
      verifyStored hp fmp (es.foldl (event addrOf) w') (pre ++ pk ++ rest) pre.length digest sig fuel = Contract.verify hp fmp digest salt s2 ntth fuel := by
  unfold setKey at h
  cases hwr : write addrOf w (Contract.abiEncode ntth) with
  | mk v r =>
    rw [hwr] at h
    cases r with
    | error e => cases h
    | ok p =>
      cases h
      have hd := (C55_write_read addrOf w w' _ p hwr).2.2.2.2
      have hp160 : p < 2 ^ 160 := by
        rw [write_eq] at hwr
        split at hwr
        · cases hwr; exact ha _
        · cases hwr
      have hl : ntth.length < 2 ^ 64 := by
        unfold Contract.abiEncode at hd
        rw [List.length_append, Contract.length_flat] at hd
        omega
      obtain ⟨sig, h1, _, h3⟩ := Contract.C38_packed hp fmp ntth hk hl digest salt s2 hs h2 hw fuel
      refine ⟨length_beBytes _ _, sig, h1, ?_⟩
      unfold verifyStored
      rw [keyAddress_eq _ _ _ (length_beBytes _ _) hr, word_beBytes 20 p (lt_of_lt_of_eq hp160 (by norm_num)), C55_stable addrOf w w' _ p hwr es]
      exact h3

/-- **C55** (keys): `setKey` accepts the ABI encoding of every key of 32 words, when the next address is usable. -/
theorem C55_setKey_succeeds (addrOf : ℕ → ℕ) (w : World) (ntth : List ℕ) (hl : ntth.length = 32) (h0 : addrOf w.nonce ≠ 0) (hc : w.code (addrOf w.nonce) = []) :
    ∃ w' pk, setKey addrOf w (Contract.abiEncode ntth) = (w', .ok pk) ∧ pk.length = 20 := by
  have hd : (Contract.abiEncode ntth).length + 1 ≤ 24576 := by
    unfold Contract.abiEncode
    rw [List.length_append, Contract.length_flat, List.length_append, Contract.length_wordBytes, Contract.length_wordBytes, hl]
    omega
  unfold setKey
  rw [write_eq, if_pos ⟨hd, h0, hc⟩]
  exact ⟨_, _, rfl, length_beBytes _ _⟩

/-- **C55** (keys): at an address without code every verification reverts. -/
theorem C55_no_key (hp : Bytes → Bytes → ℕ → Option (List ℕ)) (fmp : ℕ) (w : World) (calldata : Bytes) (offset : ℕ) (h : w.code (keyAddress calldata offset) = [])
    (digest sig : Bytes) (fuel : ℕ) : ∃ e, verifyStored hp fmp w calldata offset digest sig fuel = some (.error e) := by
  unfold verifyStored
  rw [(C55_unwritten w _ h).1]
  exact ⟨_, rfl⟩

/-- The address is not bound to the argument `_pubkey`: with an empty `_pubkey` the verifier reads whatever calldata follows — here an address placed after it. -/
theorem C55_short_key_reads_on (pre addr rest : Bytes) (ha : addr.length = 20) (hr : IsBytes rest) :
    keyAddress (pre ++ ([] : Bytes) ++ (addr ++ rest)) pre.length = Hash.Sol.word addr := by
  rw [List.append_nil, ← List.append_assoc]
  exact keyAddress_eq pre addr rest ha hr

/-! ## C54: the immutability switch -/

/-- The tables of the last update of a history, or the initial ones. -/
def lastTables (init : ℕ × ℕ × ℕ × ℕ) : List NttTx → ℕ × ℕ × ℕ × ℕ
  | [] => init
  | .update _ a b q nm1 :: txs => lastTables (a, b, q, nm1) txs
  | .makeImmutable _ :: txs => lastTables init txs

def tables (s : NttStore) : ℕ × ℕ × ℕ × ℕ := (s.psirev, s.psiInvRev, s.q, s.nm1modq)

theorem nttRun_law (txs : List NttTx) : ∀ (s : NttStore), s.isImmutable = 1 → tables (nttRun s txs) = lastTables (tables s) txs ∧ (nttRun s txs).isImmutable = 1 := by
  induction txs with
  | nil => intro s h; exact ⟨rfl, h⟩
  | cons t txs ih =>
    intro s h
    cases t with
    | update sd a b q nm1 =>
      have e : nttTx s (.update sd a b q nm1) = ⟨a, b, q, nm1, s.isImmutable⟩ := by
        exact if_pos (by omega)
      have := ih (nttTx s (.update sd a b q nm1)) (by rw [e]; exact h)
      unfold nttRun at this ⊢
      rw [List.foldl_cons]
      refine ⟨?_, this.2⟩
      rw [this.1, e]
      rfl
    | makeImmutable sd => exact ih (nttTx s (.makeImmutable sd)) rfl

/-- **C54**: the exact law of the storage: from construction, after every history of transactions by anybody, the tables are those of the last `update` (the constructor's, if there was none):
every update of every sender succeeds, before and after `make_immutable`, which has no effect. -/
theorem C54_last_update (a b q nm1 : ℕ) (txs : List NttTx) : tables (nttRun (nttConstructor a b q nm1) txs) = lastTables (a, b, q, nm1) txs :=
  (nttRun_law txs _ rfl).1

/-- **C54** (what holds): the tables do not change while nobody calls `update`. -/
theorem C54_partial (a b q nm1 : ℕ) (txs txs' : List NttTx) (h : ∀ t ∈ txs', ∃ s, t = .makeImmutable s) :
    nttRun (nttConstructor a b q nm1) (txs ++ txs') = nttRun (nttConstructor a b q nm1) txs := by
  unfold nttRun
  rw [List.foldl_append]
  have hi := (nttRun_law txs (nttConstructor a b q nm1) rfl).2
  unfold nttRun at hi
  generalize txs.foldl nttTx (nttConstructor a b q nm1) = s at hi ⊢
  induction txs' with
  | nil => rfl
  | cons t ts ih =>
    obtain ⟨sd, rfl⟩ := h t (by simp)
    rw [List.foldl_cons]
    have : nttTx s (.makeImmutable sd) = s := by
      cases s; cases hi; rfl
    rw [this]
    exact ih (fun t ht => h t (by simp [ht]))

/-- **C54 is false**: for every starting tables there is a history in which `make_immutable` is called and a later call by another sender changes the tables. -/
theorem C54_false (a b q nm1 : ℕ) : ∃ (owner attacker : ℕ) (txs txs' : List NttTx), owner ≠ attacker ∧ NttTx.makeImmutable owner ∈ txs ∧ (∀ t ∈ txs', ∃ x y z v, t = .update attacker x y z v) ∧
    tables (nttRun (nttConstructor a b q nm1) (txs ++ txs')) ≠ tables (nttRun (nttConstructor a b q nm1) txs) := by
  refine ⟨0, 1, [.makeImmutable 0], [.update 1 a b (q + 1) nm1], by decide, by simp, fun t ht => ⟨a, b, q + 1, nm1, by simpa using ht⟩, ?_⟩
  rw [C54_last_update, C54_last_update]
  simp [lastTables]

/-- … and with them the product the contract computes: after `make_immutable`, a stranger's update changes the answer of `ZKNOX_NTT_HALFMUL` on the same arguments. -/
theorem C54_observable : ∃ (codes : ℕ → Bytes) (a b : List ℕ) (t : NttTx),
    nttHalfMul codes (nttRun (nttConstructor 1 2 12289 6145) [.makeImmutable 0]) a b ≠ nttHalfMul codes (nttRun (nttConstructor 1 2 12289 6145) [.makeImmutable 0, t]) a b := by
  refine ⟨fun _ => [], [1, 2], [3, 4], .update 1 1 2 12289 1, ?_⟩
  decide +kernel

/-- **C62**, **C54**: after any history whose last tables are these, if the code at the two addresses holds the tables with 32 bytes per entry, the stateful half product
(`ZKNOX_NTT_HALFMUL` on the storage) is the product in the ring of `a` and the polynomial whose stateful transform is `b`. -/
theorem C62_half_mul (codes : ℕ → Bytes) (p1 p2 q0 nm0 r1 r2 : ℕ) (txs : List NttTx) (k nm1 : ℕ) (hl : lastTables (r1, r2, q0, nm0) txs = (p1, p2, 12289, nm1))
    (h1 : codes p1 = NTT.packWords NTT.psiRev) (h2 : codes p2 = NTT.packWords NTT.psiInvRev) (hk : k ≤ 9) (hn : 2 ^ k * nm1 % 12289 = 1) (a b h : List ℕ)
    (ha : a.length = 2 ^ k) (hh : h.length = 2 ^ k) (hb : b.length = 2 ^ k) (ht : b.map (· % 12289) = (NTT.statefulFw 12289 (codes p1) h).map (· % 12289)) :
    ∃ c, nttHalfMul codes (nttRun (nttConstructor r1 r2 q0 nm0) txs) a b = .ok c ∧ NTT.IsProduct 12289 a h c := by
  have hs := C54_last_update r1 r2 q0 nm0 txs
  rw [hl] at hs
  simp only [tables, Prod.mk.injEq] at hs
  unfold nttHalfMul
  rw [hs.1, hs.2.1, hs.2.2.1, hs.2.2.2, if_neg (by omega), h1, h2]
  rw [h1] at ht
  exact ⟨_, rfl, NTT.stateful_half_mul k nm1 hk hn a b h ha hh hb ht⟩

/-- The hypotheses are met: tables written with 32 bytes per entry at addresses 1 and 2, size 2, `nm1 = 6145`. -/
example : ∃ c, nttHalfMul (fun x => if x = 1 then NTT.packWords NTT.psiRev else NTT.packWords NTT.psiInvRev)
    (nttRun (nttConstructor 7 8 5 3) [.makeImmutable 0, .update 4 1 2 12289 6145, .makeImmutable 0]) [5, 7]
    (NTT.statefulFw 12289 (NTT.packWords NTT.psiRev) [11, 13]) = .ok c ∧ NTT.IsProduct 12289 [5, 7] [11, 13] c := by
  refine C62_half_mul _ 1 2 5 3 7 8 _ 1 6145 rfl ?_ ?_ (by norm_num) (by norm_num) _ _ [11, 13] rfl rfl ?_ ?_
  · exact if_pos rfl
  · exact if_neg (by norm_num)
  · exact NTT.length_statefulFw 1 [11, 13] rfl
  · simp only [if_pos]

end Verif.Storage
