import Verif.Hash.Lemmas

/-! # The contract's hash-to-point loops, and `KeccaXOF` -/

namespace Verif.Hash

/-! ## Words -/

theorem foldl_word (b : Bytes) (a : Nat) : b.foldl (fun a x => a * 256 + x) a = a * 256 ^ b.length + Sol.word b := by
  induction b generalizing a with
  | nil => simp [Sol.word]
  | cons x b ih =>
    rw [Sol.word, List.foldl_cons, List.foldl_cons, ih, ih (0 * 256 + x), List.length_cons, Nat.pow_succ, Nat.zero_mul, Nat.zero_add, Nat.add_mul, Nat.mul_assoc, Nat.mul_comm 256, Nat.add_assoc]

theorem word_append (a b : Bytes) : Sol.word (a ++ b) = Sol.word a * 256 ^ b.length + Sol.word b := by
  rw [Sol.word, List.foldl_append, foldl_word]; rfl

theorem word_lt (b : Bytes) (h : IsBytes b) : Sol.word b < 256 ^ b.length := by
  induction b with
  | nil => simp [Sol.word]
  | cons x b ih =>
    have hx := h x (by simp)
    have := ih (fun y hy => h y (by simp [hy]))
    rw [show x :: b = [x] ++ b from rfl, word_append, List.length_append, Nat.pow_add]
    simp only [Sol.word, List.foldl_cons, List.foldl_nil, List.length_cons, List.length_nil, Nat.zero_mul, Nat.zero_add, Nat.pow_one] at *
    calc x * 256 ^ b.length + b.foldl (fun a x => a * 256 + x) 0 < x * 256 ^ b.length + 256 ^ b.length := by omega
      _ = (x + 1) * 256 ^ b.length := by rw [Nat.add_mul, Nat.one_mul]
      _ ≤ 256 * 256 ^ b.length := Nat.mul_le_mul_right _ hx

/-- The 16-bit chunk of a 256-bit word at byte position `2 k`. -/
theorem chunk_eq (b : Bytes) (h : IsBytes b) (hl : b.length = 32) (k : Nat) (hk : k < 16) :
    (Sol.word b >>> (240 - 16 * k)) &&& 0xffff = 256 * b.getD (2 * k) 0 + b.getD (2 * k + 1) 0 := by
  have hsplit : b = (b.take (2 * k)) ++ ([b.getD (2 * k) 0, b.getD (2 * k + 1) 0] ++ b.drop (2 * k + 2)) := by
    conv => lhs; rw [← List.take_append_drop (2 * k) b]
    congr 1
    rw [List.drop_eq_getElem_cons (by omega), List.drop_eq_getElem_cons (by omega)]
    simp [show 2 * k < b.length by omega, show 2 * k + 1 < b.length by omega]
  have hx := Keccak.smallBuf_of_isBytes h (2 * k)
  have hy := Keccak.smallBuf_of_isBytes h (2 * k + 1)
  have hd : (b.drop (2 * k + 2)).length = 30 - 2 * k := by rw [List.length_drop]; omega
  have hlt := word_lt (b.drop (2 * k + 2)) (fun y hy => h y (List.mem_of_mem_drop hy))
  rw [hd] at hlt
  have hw : Sol.word b = (Sol.word (b.take (2 * k)) * 65536 + (256 * b.getD (2 * k) 0 + b.getD (2 * k + 1) 0)) * 256 ^ (30 - 2 * k) + Sol.word (b.drop (2 * k + 2)) := by
    conv => lhs; rw [hsplit]
    rw [word_append, word_append, List.length_append, hd, Nat.pow_add, Nat.add_mul]
    simp only [Sol.word, List.foldl_cons, List.foldl_nil, List.length_cons, List.length_nil]
    rw [show (256 : Nat) ^ (0 + (1 + 1)) = 65536 from rfl, show (0 * 256 + b.getD (2 * k) 0) * 256 + b.getD (2 * k + 1) 0 = 256 * b.getD (2 * k) 0 + b.getD (2 * k + 1) 0 by omega,
      Nat.mul_assoc, Nat.add_assoc]
  rw [Nat.shiftRight_eq_div_pow, show (2 : Nat) ^ (240 - 16 * k) = 256 ^ (30 - 2 * k) by
    rw [show (256 : Nat) = 2 ^ 8 from rfl, ← Nat.pow_mul]; congr 1; omega]
  rw [show (0xffff : Nat) = 2 ^ 16 - 1 from rfl, Nat.and_two_pow_sub_one_eq_mod, hw, Nat.mul_comm _ (256 ^ _), Nat.mul_add_div (Nat.pow_pos (by decide)),
    Nat.div_eq_of_lt hlt]
  omega

/-! ## `hashToPointEVM` -/

variable {H : Bytes → Bytes}

theorem word16_block (st : Nat → Nat) (B : Bytes) (b k : Nat) (hst : ∀ r, r < 32 → st (32 * b + r) = B.getD r 0) (hk : k < 16) :
    word16 st (16 * b + k) = 256 * B.getD (2 * k) 0 + B.getD (2 * k + 1) 0 := by
  unfold word16
  rw [show 2 * (16 * b + k) = 32 * b + 2 * k by omega, show 32 * b + 2 * k + 1 = 32 * b + (2 * k + 1) by omega, hst _ (by omega), hst _ (by omega)]

theorem evmShifts_drop (k : Nat) (hk : k < 16) : Sol.evmShifts.drop k = (240 - 16 * k) :: Sol.evmShifts.drop (k + 1) := by
  have : ∀ k < 16, Sol.evmShifts.drop k = (240 - 16 * k) :: Sol.evmShifts.drop (k + 1) := by decide
  exact this k hk

theorem evmInner_spec (st : Nat → Nat) (B : Bytes) (hB : IsBytes B) (hl : B.length = 32) (b : Nat) (hst : ∀ r, r < 32 → st (32 * b + r) = B.getD r 0)
    (r k : Nat) (hrk : k + r = 16) (i : Nat) (out : List Nat) (hi : i < 512) (hinv : Inv st 512 (16 * b + k) i out) :
    ∃ t', Inv st 512 t' (Sol.evmInner (Sol.word B) (Sol.evmShifts.drop k) i out).1 (Sol.evmInner (Sol.word B) (Sol.evmShifts.drop k) i out).2 ∧
      ((Sol.evmInner (Sol.word B) (Sol.evmShifts.drop k) i out).1 < 512 → t' = 16 * (b + 1)) := by
  induction r generalizing k i out with
  | zero =>
    have : k = 16 := by omega
    subst this
    exact ⟨16 * b + 16, hinv, fun _ => by omega⟩
  | succ r ih =>
    rw [evmShifts_drop k (by omega)]
    unfold Sol.evmInner
    dsimp only
    rw [chunk_eq B hB hl k (by omega), ← word16_block st B b k hst (by omega)]
    by_cases hw : word16 st (16 * b + k) < 61445
    · rw [if_pos hw]
      have hacc := inv_accept hinv hi hw
      by_cases h512 : i + 1 = 512
      · rw [if_pos h512]
        exact ⟨_, hacc, fun h => absurd h (by show ¬ i + 1 < 512; omega)⟩
      · rw [if_neg h512]
        exact ih (k + 1) (by omega) (i + 1) _ (by omega) hacc
    · rw [if_neg hw]
      exact ih (k + 1) (by omega) i _ hi (inv_reject hinv hw)

theorem top8_eq (b : Nat) : Sol.top8 (b * 2 ^ 192 % 2 ^ 256) = ctrBytes b := by
  unfold Sol.top8 ctrBytes
  apply List.map_congr_left
  intro i hi
  have hi := List.mem_range.mp hi
  have e : (256 : Nat) ^ (31 - i) = 2 ^ 192 * 256 ^ (7 - i) := by
    rw [show (256 : Nat) = 2 ^ 8 from rfl, ← Nat.pow_mul, ← Nat.pow_mul, ← Nat.pow_add]; congr 1; omega
  rw [show (2 : Nat) ^ 256 = 2 ^ 64 * 2 ^ 192 from rfl, Nat.mul_mod_mul_right, e, ← Nat.div_div_eq_div_mul, Nat.mul_div_cancel _ (by decide)]
  have e2 : (2 : Nat) ^ 64 = 256 ^ (7 - i) * (256 ^ i * 256) := by
    rw [show (2 : Nat) ^ 64 = 256 ^ 8 from rfl, ← Nat.pow_succ, ← Nat.pow_add]; congr 1; omega
  rw [e2, Nat.mod_mul_right_div_self, Nat.mod_mul_left_mod]

theorem evm_stream (m : Bytes) (b r : Nat) (hr : r < 32) : streamByte H m (32 * b + r) = (H (H m ++ ctrBytes b)).getD r 0 := by
  unfold streamByte
  rw [show (32 * b + r) / 32 = b by omega, show (32 * b + r) % 32 = r by omega]

theorem evmLoop_sound (hH : ∀ x, (H x).length = 32) (hb : ∀ x, IsBytes (H x)) (m : Bytes) (fuel b t i : Nat) (out res : List Nat)
    (hinv : Inv (streamByte H m) 512 t i out) (ht : i < 512 → t = 16 * b)
    (h : Sol.evmLoop H (H m) fuel (b * 2 ^ 192 % 2 ^ 256) (ctrBytes b) i out = some res) : IsPoint (streamByte H m) 512 res := by
  induction fuel generalizing b t i out with
  | zero => simp [Sol.evmLoop] at h
  | succ fuel ih =>
    unfold Sol.evmLoop at h
    by_cases hi : i < 512
    · rw [if_pos hi] at h
      rw [ht hi] at hinv
      obtain ⟨t', h1, h2⟩ := evmInner_spec (streamByte H m) (H (H m ++ ctrBytes b)) (hb _) (hH _) b (fun r hr => evm_stream m b r hr) 16 0 rfl i out hi hinv
      rw [List.drop_zero] at h1 h2
      have hc : (b * 2 ^ 192 % 2 ^ 256 + 6277101735386680763835789423207666416102355444464034512896) % 2 ^ 256 = (b + 1) * 2 ^ 192 % 2 ^ 256 := by omega
      dsimp only at h
      rw [hc, top8_eq] at h
      exact ih (b + 1) t' _ _ h1 h2 h
    · rw [if_neg hi] at h
      cases h
      obtain ⟨k1, k2⟩ := inv_done hinv hi
      exact ⟨t, k1, k2⟩

theorem evmLoop_complete (hH : ∀ x, (H x).length = 32) (hb : ∀ x, IsBytes (H x)) (m : Bytes) (T : Nat) (res : List Nat)
    (hT : accepted (streamByte H m) T = res) (hl : res.length = 512) (fuel b t i : Nat) (out : List Nat)
    (hinv : Inv (streamByte H m) 512 t i out) (ht : i < 512 → t = 16 * b) (hf1 : 1 ≤ fuel) (hf : i < 512 → T + 16 ≤ 16 * (b + fuel)) :
    Sol.evmLoop H (H m) fuel (b * 2 ^ 192 % 2 ^ 256) (ctrBytes b) i out = some res := by
  induction fuel generalizing b t i out with
  | zero => omega
  | succ fuel ih =>
    unfold Sol.evmLoop
    by_cases hi : i < 512
    · rw [if_pos hi]
      have htT := inv_lt hinv hi hT hl
      have hf := hf hi
      rw [ht hi] at hinv htT
      obtain ⟨t', h1, h2⟩ := evmInner_spec (streamByte H m) (H (H m ++ ctrBytes b)) (hb _) (hH _) b (fun r hr => evm_stream m b r hr) 16 0 rfl i out hi hinv
      rw [List.drop_zero] at h1 h2
      have hc : (b * 2 ^ 192 % 2 ^ 256 + 6277101735386680763835789423207666416102355444464034512896) % 2 ^ 256 = (b + 1) * 2 ^ 192 % 2 ^ 256 := by omega
      dsimp only
      rw [hc, top8_eq]
      exact ih (b + 1) t' _ _ h1 h2 (by omega) (fun _ => by omega)
    · rw [if_neg hi]
      obtain ⟨k1, k2⟩ := inv_done hinv hi
      rw [isPoint_unique ⟨t, k1, k2⟩ ⟨T, hT, hl⟩]

theorem ctrBytes_zero : List.replicate 8 0 = ctrBytes 0 := by decide

/-- The contract's EVM hash returns exactly the point of the (periodic) stream. -/
theorem evm_iff (hH : ∀ x, (H x).length = 32) (hb : ∀ x, IsBytes (H x)) (salt msg : Bytes) (out : List Nat) :
    (∃ fuel, Sol.hashToPointEVM H salt msg fuel = some out) ↔ IsPoint (streamByte H (salt ++ msg)) 512 out := by
  unfold Sol.hashToPointEVM
  rw [ctrBytes_zero]
  constructor
  · rintro ⟨fuel, h⟩
    exact evmLoop_sound hH hb (salt ++ msg) fuel 0 0 0 _ out (inv_zero _ _) (fun _ => rfl) h
  · rintro ⟨T, h1, h2⟩
    exact ⟨T + 1, evmLoop_complete hH hb (salt ++ msg) T out h1 h2 (T + 1) 0 0 0 _ (inv_zero _ _) (fun _ => rfl) (by omega) (fun _ => by omega)⟩

/-! ## `hashToPointNIST` -/

/-- Loop state of the contract: the buffer holds block `b` of the output and `j` bytes of it are consumed. -/
structure NInv (m : Bytes) (ctx : Keccak.Sol.Ctx) (tmp : Bytes) (b : Nat) : Prop where
  mir : Keccak.Mirror ctx (Keccak.xofAt Keccak.F1600 136 0x1f m (136 * (b + 1)))
  tmp : tmp = Keccak.Spec.shake256 m (136 * b) 136

theorem shake256_getD (m : Bytes) (a j : Nat) (hj : j < 136) : (Keccak.Spec.shake256 m a 136).getD j 0 = shakeByte m (a + j) := by
  unfold Keccak.Spec.shake256 Keccak.Spec.spongeOut
  rw [List.getD_eq_getElem?_getD, List.getElem?_map, List.getElem?_range hj]
  rfl

theorem nist_word (m : Bytes) (b k : Nat) (hk : k < 68) : word16 (shakeByte m) (68 * b + k) =
    (Keccak.Spec.shake256 m (136 * b) 136).getD (2 * k + 1) 0 + (Keccak.Spec.shake256 m (136 * b) 136).getD (2 * k) 0 <<< 8 := by
  rw [shake256_getD _ _ _ (by omega), shake256_getD _ _ _ (by omega), word16, Nat.shiftLeft_eq, show 2 * (68 * b + k) = 136 * b + 2 * k by omega,
    show 136 * b + 2 * k + 1 = 136 * b + (2 * k + 1) by omega]
  omega

theorem ninv_next {m : Bytes} {a : Nat} {ctx : Keccak.Sol.Ctx} (h : Keccak.Mirror ctx (Keccak.xofAt Keccak.F1600 136 0x1f m (136 * a))) :
    NInv m (Keccak.Sol.shakeSqueeze ctx 136).1 (Keccak.Sol.shakeSqueeze ctx 136).2 a := by
  obtain ⟨h1, h2⟩ := Keccak.mirror_squeeze h (Keccak.squeeze_i _ _ _) 136
  rw [Keccak.squeeze_xofAt (by decide) (by decide) Keccak.F1600_length] at h1 h2
  refine ⟨h1, ?_⟩
  rw [h2]
  exact Keccak.spongeOut_F Keccak.F1600_spec Keccak.F1600_length 136 0x1f m (136 * a) 136

/-- Step: the buffer after the optional refill. -/
theorem nist_refill {m : Bytes} {ctx : Keccak.Sol.Ctx} {tmp : Bytes} {b : Nat} (h : NInv m ctx tmp b) (k : Nat) (hk : k ≤ 68) :
    ∃ b' k', k' < 68 ∧ 68 * b' + k' = 68 * b + k ∧
      NInv m (if 2 * k = 136 then ((Keccak.Sol.shakeSqueeze ctx 136).1, (Keccak.Sol.shakeSqueeze ctx 136).2, 0) else (ctx, tmp, 2 * k)).1
        (if 2 * k = 136 then ((Keccak.Sol.shakeSqueeze ctx 136).1, (Keccak.Sol.shakeSqueeze ctx 136).2, 0) else (ctx, tmp, 2 * k)).2.1 b' ∧
      (if 2 * k = 136 then ((Keccak.Sol.shakeSqueeze ctx 136).1, (Keccak.Sol.shakeSqueeze ctx 136).2, 0) else (ctx, tmp, 2 * k)).2.2 = 2 * k' := by
  by_cases e : 2 * k = 136
  · rw [if_pos e]
    exact ⟨b + 1, 0, by omega, by omega, ninv_next h.mir, rfl⟩
  · rw [if_neg e]
    exact ⟨b, k, by omega, rfl, h, rfl⟩

theorem nistLoop_sound (m : Bytes) (fuel b k i : Nat) (ctx : Keccak.Sol.Ctx) (tmp : Bytes) (out res : List Nat) (hk : k ≤ 68)
    (hn : NInv m ctx tmp b) (hinv : Inv (shakeByte m) 512 (68 * b + k) i out) (h : Sol.nistLoop fuel ctx tmp (2 * k) i out = some res) :
    IsPoint (shakeByte m) 512 res := by
  induction fuel generalizing b k i ctx tmp out with
  | zero => simp [Sol.nistLoop] at h
  | succ fuel ih =>
    unfold Sol.nistLoop at h
    by_cases hi : i < 512
    · rw [if_pos hi] at h
      obtain ⟨b', k', h1, h2, h3, h4⟩ := nist_refill hn k hk
      generalize (if 2 * k = 136 then ((Keccak.Sol.shakeSqueeze ctx 136).1, (Keccak.Sol.shakeSqueeze ctx 136).2, 0) else (ctx, tmp, 2 * k)) = p at *
      obtain ⟨ctx', tmp', j'⟩ := p
      dsimp only at h h3 h4
      subst h4
      rw [h3.tmp, ← nist_word m b' k' h1, ← h3.tmp] at h
      rw [← h2] at hinv
      rw [show 2 * k' + 2 = 2 * (k' + 1) by omega] at h
      by_cases hw : word16 (shakeByte m) (68 * b' + k') < 61445
      · rw [if_pos hw] at h
        exact ih b' (k' + 1) _ _ _ _ (by omega) h3 (inv_accept hinv hi hw) h
      · rw [if_neg hw] at h
        exact ih b' (k' + 1) _ _ _ _ (by omega) h3 (inv_reject hinv hw) h
    · rw [if_neg hi] at h
      cases h
      obtain ⟨k1, k2⟩ := inv_done hinv hi
      exact ⟨_, k1, k2⟩

theorem nistLoop_complete (m : Bytes) (T : Nat) (res : List Nat) (hT : accepted (shakeByte m) T = res) (hl : res.length = 512)
    (fuel b k i : Nat) (ctx : Keccak.Sol.Ctx) (tmp : Bytes) (out : List Nat) (hk : k ≤ 68)
    (hn : NInv m ctx tmp b) (hinv : Inv (shakeByte m) 512 (68 * b + k) i out) (hf1 : 1 ≤ fuel) (hf : i < 512 → T < 68 * b + k + fuel) :
    Sol.nistLoop fuel ctx tmp (2 * k) i out = some res := by
  induction fuel generalizing b k i ctx tmp out with
  | zero => omega
  | succ fuel ih =>
    unfold Sol.nistLoop
    by_cases hi : i < 512
    · rw [if_pos hi]
      have htT := inv_lt hinv hi hT hl
      have hf := hf hi
      obtain ⟨b', k', h1, h2, h3, h4⟩ := nist_refill hn k hk
      generalize (if 2 * k = 136 then ((Keccak.Sol.shakeSqueeze ctx 136).1, (Keccak.Sol.shakeSqueeze ctx 136).2, 0) else (ctx, tmp, 2 * k)) = p at *
      obtain ⟨ctx', tmp', j'⟩ := p
      dsimp only at h3 h4 ⊢
      subst h4
      rw [h3.tmp, ← nist_word m b' k' h1, ← h3.tmp]
      rw [← h2] at hinv
      rw [show 2 * k' + 2 = 2 * (k' + 1) by omega]
      by_cases hw : word16 (shakeByte m) (68 * b' + k') < 61445
      · rw [if_pos hw]
        exact ih b' (k' + 1) _ _ _ _ (by omega) h3 (inv_accept hinv hi hw) (by omega) (fun _ => by omega)
      · rw [if_neg hw]
        exact ih b' (k' + 1) _ _ _ _ (by omega) h3 (inv_reject hinv hw) (by omega) (fun _ => by omega)
    · rw [if_neg hi]
      obtain ⟨k1, k2⟩ := inv_done hinv hi
      rw [isPoint_unique ⟨_, k1, k2⟩ ⟨T, hT, hl⟩]

theorem nist_iff (salt msg : Bytes) (hs : IsBytes salt) (hm : IsBytes msg) (out : List Nat) :
    (∃ fuel, Sol.hashToPointNIST salt msg fuel = some out) ↔ IsPoint (shakeByte (salt ++ msg)) 512 out := by
  have hsm : IsBytes (salt ++ msg) := fun x hx => (List.mem_append.mp hx).elim (hs x) (hm x)
  have hmir := Keccak.mirror_pad (Keccak.mirror_update Keccak.mirror_init (salt ++ msg) hsm)
  rw [Keccak.pad_xofAt (by decide) (by decide)] at hmir
  have hn : NInv (salt ++ msg) _ _ 0 := ninv_next (a := 0) hmir
  unfold Sol.hashToPointNIST
  constructor
  · rintro ⟨fuel, h⟩
    exact nistLoop_sound (salt ++ msg) fuel 0 0 0 _ _ _ out (by omega) hn (inv_zero _ _) h
  · rintro ⟨T, h1, h2⟩
    exact ⟨T + 1, nistLoop_complete (salt ++ msg) T out h1 h2 (T + 1) 0 0 0 _ _ _ (by omega) hn (inv_zero _ _) (by omega) (fun _ => by omega)⟩

/-! ## `hashToPointTETRATION` and `KeccaXOF` -/

/-- Byte `k` of the iterated-hash stream: block `j` is `H` applied `j + 1` times. -/
def tetrByte (H : Bytes → Bytes) (m : Bytes) (k : Nat) : Nat := (H ((k / 32).repeat H m)).getD (k % 32) 0

theorem tetr_stream (m : Bytes) (b r : Nat) (hr : r < 32) : tetrByte H m (32 * b + r) = (H (b.repeat H m)).getD r 0 := by
  unfold tetrByte
  rw [show (32 * b + r) / 32 = b by omega, show (32 * b + r) % 32 = r by omega]

theorem splitToHex_getD (B : Bytes) (hB : IsBytes B) (hl : B.length = 32) (k : Nat) (hk : k < 16) :
    (Sol.splitToHex (Sol.word B)).getD k 0 = 256 * B.getD (2 * k) 0 + B.getD (2 * k + 1) 0 := by
  rw [← chunk_eq B hB hl k hk, Sol.splitToHex, List.getD_eq_getElem?_getD, List.getElem?_map, List.getElem?_range hk]
  show (Sol.word B >>> ((15 - k) <<< 4)) &&& 0xffff = _
  rw [show (15 - k) <<< 4 = 240 - 16 * k by rw [Nat.shiftLeft_eq]; omega]

/-- Loop state: `tmp` is block `b`. -/
structure TInv (H : Bytes → Bytes) (m tmp : Bytes) (sample : List Nat) (b : Nat) : Prop where
  ht : tmp = H (b.repeat H m)
  hs : sample = Sol.splitToHex (Sol.word tmp)

theorem tetr_refill {m tmp : Bytes} {sample : List Nat} {b : Nat} (h : TInv H m tmp sample b) (k : Nat) (hk : k ≤ 16) :
    ∃ b' k', k' < 16 ∧ 16 * b' + k' = 16 * b + k ∧
      TInv H m (if k = 16 then (H tmp, Sol.splitToHex (Sol.word (H tmp)), 0) else (tmp, sample, k)).1
        (if k = 16 then (H tmp, Sol.splitToHex (Sol.word (H tmp)), 0) else (tmp, sample, k)).2.1 b' ∧
      (if k = 16 then (H tmp, Sol.splitToHex (Sol.word (H tmp)), 0) else (tmp, sample, k)).2.2 = k' := by
  by_cases e : k = 16
  · rw [if_pos e]
    refine ⟨b + 1, 0, by omega, by omega, ⟨?_, rfl⟩, rfl⟩
    rw [h.ht]; rfl
  · rw [if_neg e]
    exact ⟨b, k, by omega, rfl, h, rfl⟩

theorem tetr_word (hH : ∀ x, (H x).length = 32) (hb : ∀ x, IsBytes (H x)) {m tmp : Bytes} {sample : List Nat} {b : Nat} (h : TInv H m tmp sample b) (k : Nat) (hk : k < 16) :
    sample.getD k 0 = word16 (tetrByte H m) (16 * b + k) := by
  rw [h.hs, h.ht, splitToHex_getD _ (hb _) (hH _) k hk, word16_block (tetrByte H m) (H (b.repeat H m)) b k (fun r hr => tetr_stream m b r hr) hk]

theorem tetrLoop_sound (hH : ∀ x, (H x).length = 32) (hb : ∀ x, IsBytes (H x)) (m : Bytes) (fuel b k i : Nat) (tmp : Bytes) (sample out res : List Nat) (hk : k ≤ 16)
    (hn : TInv H m tmp sample b) (hinv : Inv (tetrByte H m) 512 (16 * b + k) i out) (h : Sol.tetrLoop H fuel tmp sample k i out = some res) :
    IsPoint (tetrByte H m) 512 res := by
  induction fuel generalizing b k i tmp sample out with
  | zero => simp [Sol.tetrLoop] at h
  | succ fuel ih =>
    unfold Sol.tetrLoop at h
    by_cases hi : i < 512
    · rw [if_pos hi] at h
      obtain ⟨b', k', h1, h2, h3, h4⟩ := tetr_refill hn k hk
      generalize (if k = 16 then (H tmp, Sol.splitToHex (Sol.word (H tmp)), 0) else (tmp, sample, k)) = p at *
      obtain ⟨tmp', sample', j'⟩ := p
      dsimp only at h h3 h4
      subst h4
      rw [tetr_word hH hb h3 _ h1] at h
      rw [← h2] at hinv
      by_cases hw : word16 (tetrByte H m) (16 * b' + j') < 61445
      · rw [if_pos hw] at h
        exact ih b' (j' + 1) _ _ _ _ (by omega) h3 (inv_accept hinv hi hw) h
      · rw [if_neg hw] at h
        exact ih b' (j' + 1) _ _ _ _ (by omega) h3 (inv_reject hinv hw) h
    · rw [if_neg hi] at h
      cases h
      obtain ⟨k1, k2⟩ := inv_done hinv hi
      exact ⟨_, k1, k2⟩

theorem tetrLoop_complete (hH : ∀ x, (H x).length = 32) (hb : ∀ x, IsBytes (H x)) (m : Bytes) (T : Nat) (res : List Nat)
    (hT : accepted (tetrByte H m) T = res) (hl : res.length = 512)
    (fuel b k i : Nat) (tmp : Bytes) (sample out : List Nat) (hk : k ≤ 16)
    (hn : TInv H m tmp sample b) (hinv : Inv (tetrByte H m) 512 (16 * b + k) i out) (hf1 : 1 ≤ fuel) (hf : i < 512 → T < 16 * b + k + fuel) :
    Sol.tetrLoop H fuel tmp sample k i out = some res := by
  induction fuel generalizing b k i tmp sample out with
  | zero => omega
  | succ fuel ih =>
    unfold Sol.tetrLoop
    by_cases hi : i < 512
    · rw [if_pos hi]
      have htT := inv_lt hinv hi hT hl
      have hf := hf hi
      obtain ⟨b', k', h1, h2, h3, h4⟩ := tetr_refill hn k hk
      generalize (if k = 16 then (H tmp, Sol.splitToHex (Sol.word (H tmp)), 0) else (tmp, sample, k)) = p at *
      obtain ⟨tmp', sample', j'⟩ := p
      dsimp only at h3 h4 ⊢
      subst h4
      rw [tetr_word hH hb h3 _ h1]
      rw [← h2] at hinv
      by_cases hw : word16 (tetrByte H m) (16 * b' + j') < 61445
      · rw [if_pos hw]
        exact ih b' (j' + 1) _ _ _ _ (by omega) h3 (inv_accept hinv hi hw) (by omega) (fun _ => by omega)
      · rw [if_neg hw]
        exact ih b' (j' + 1) _ _ _ _ (by omega) h3 (inv_reject hinv hw) (by omega) (fun _ => by omega)
    · rw [if_neg hi]
      obtain ⟨k1, k2⟩ := inv_done hinv hi
      rw [isPoint_unique ⟨_, k1, k2⟩ ⟨T, hT, hl⟩]

theorem tetr_iff (hH : ∀ x, (H x).length = 32) (hb : ∀ x, IsBytes (H x)) (salt msg : Bytes) (out : List Nat) :
    (∃ fuel, Sol.hashToPointTETRATION H salt msg fuel = some out) ↔ IsPoint (tetrByte H (msg ++ salt)) 512 out := by
  have hn : TInv H (msg ++ salt) (H (msg ++ salt)) (Sol.splitToHex (Sol.word (H (msg ++ salt)))) 0 := ⟨rfl, rfl⟩
  unfold Sol.hashToPointTETRATION
  constructor
  · rintro ⟨fuel, h⟩
    exact tetrLoop_sound hH hb _ fuel 0 0 0 _ _ _ out (by omega) hn (inv_zero _ _) h
  · rintro ⟨T, h1, h2⟩
    exact ⟨T + 1, tetrLoop_complete hH hb _ T out h1 h2 (T + 1) 0 0 0 _ _ _ (by omega) hn (inv_zero _ _) (by omega) (fun _ => by omega)⟩

/-- Bytes `[a, a+n)` of the iterated-hash stream. -/
def tetrOut (H : Bytes → Bytes) (m : Bytes) (a n : Nat) : Bytes := (List.range n).map fun j => tetrByte H m (a + j)

theorem tetrOut_add (m : Bytes) (a n k : Nat) : tetrOut H m a (n + k) = tetrOut H m a n ++ tetrOut H m (a + n) k := by
  unfold tetrOut
  rw [List.range_add, List.map_append, List.map_map]
  congr 1
  apply List.map_congr_left
  intro j _
  simp only [Function.comp, Nat.add_assoc]

theorem tetrOut_block (hH : ∀ x, (H x).length = 32) (m : Bytes) (b : Nat) : tetrOut H m (32 * b) 32 = H (b.repeat H m) := by
  apply Keccak.list_ext_getD
  · rw [hH]; simp [tetrOut]
  · intro k hk
    have hk : k < 32 := by simpa [tetrOut] using hk
    rw [tetrOut, List.getD_eq_getElem?_getD, List.getElem?_map, List.getElem?_range hk]
    exact tetr_stream m b k hk

/-- The object after at least one read: `b + 1` blocks have been produced and `a` bytes delivered. -/
structure KAt (H : Bytes → Bytes) (m : Bytes) (a b : Nat) (c : KXof) : Prop where
  last : c.last = some (H (b.repeat H m))
  le : a ≤ 32 * (b + 1)
  tmp : c.tmp = tetrOut H m a (32 * (b + 1) - a)

theorem refill_spec (hH : ∀ x, (H x).length = 32) (m : Bytes) (a k fuel b : Nat) (c : KXof) (h : KAt H m a b c) (hf : a + k ≤ 32 * (b + 1) + 32 * fuel) :
    ∃ b', KAt H m a b' (KXof.refill H k fuel c) ∧ a + k ≤ 32 * (b' + 1) := by
  induction fuel generalizing b c with
  | zero => exact ⟨b, h, by omega⟩
  | succ fuel ih =>
    unfold KXof.refill
    have hlen : c.tmp.length = 32 * (b + 1) - a := by rw [h.tmp]; simp [tetrOut]
    by_cases hk : c.tmp.length * 2 < k * 2
    · rw [if_pos hk]
      apply ih (b + 1)
      · refine ⟨?_, by have := h.le; omega, ?_⟩
        · show some (H (c.last.getD [])) = _
          rw [h.last]; rfl
        · show c.tmp ++ H (c.last.getD []) = _
          rw [h.last, h.tmp, show H ((some (H (b.repeat H m))).getD []) = H ((b + 1).repeat H m) from rfl, ← tetrOut_block hH m (b + 1)]
          have := h.le
          have e := tetrOut_add (H := H) m a (32 * (b + 1) - a) 32
          rw [show a + (32 * (b + 1) - a) = 32 * (b + 1) by omega, show 32 * (b + 1) - a + 32 = 32 * (b + 1 + 1) - a by omega] at e
          exact e.symm
      · omega
    · rw [if_neg hk]
      exact ⟨b, h, by have := h.le; omega⟩

theorem toTwoBytes_two (x y : Nat) (hx : x < 256) (hy : y < 256) : toTwoBytes [x, y] = .ok [x, y] := by
  have e1 : (([x, y] : List Nat).foldl (fun a x => a * 256 + x) 0) = 256 * x + y := by simp; omega
  unfold toTwoBytes
  rw [e1]
  simp only [List.length_cons, List.length_nil]
  rw [if_neg (by omega), if_pos (by omega)]
  congr 2
  · omega
  · congr 1; omega

theorem tetrByte_lt (hb : ∀ x, IsBytes (H x)) (m : Bytes) (k : Nat) : tetrByte H m k < 256 := Keccak.smallBuf_of_isBytes (hb _) _

/-- Stands at byte `a` of the stream of `m`. -/
def KPos (H : Bytes → Bytes) (m : Bytes) (a : Nat) (c : KXof) : Prop := (a = 0 ∧ c.last = none ∧ c.input.flatten = m) ∨ ∃ b, KAt H m a b c

theorem kread_spec (hH : ∀ x, (H x).length = 32) (hb : ∀ x, IsBytes (H x)) (m : Bytes) (a : Nat) (c : KXof) (h : KPos H m a c) :
    ∃ c', KXof.read H c 2 = .ok (c', [tetrByte H m a, tetrByte H m (a + 1)]) ∧ KPos H m (a + 2) c' := by
  obtain ⟨c1, b, hc1, hr⟩ : ∃ c1 b, KAt H m a b c1 ∧ c.start H = c1 := by
    unfold KXof.start
    rcases h with ⟨rfl, h1, h2⟩ | ⟨b, hb⟩
    · refine ⟨_, 0, ⟨?_, by omega, ?_⟩, rfl⟩
      · rw [h1, h2]; rfl
      · rw [h1, h2]; exact (tetrOut_block hH m 0).symm
    · refine ⟨c, b, hb, ?_⟩
      rw [hb.last]
  obtain ⟨b', h1, h2⟩ := refill_spec hH m a 2 2 b c1 hc1 (by have := hc1.le; omega)
  unfold KXof.read
  rw [hr]
  dsimp only
  have ht : (KXof.refill H 2 2 c1).tmp = [tetrByte H m a, tetrByte H m (a + 1)] ++ tetrOut H m (a + 2) (32 * (b' + 1) - (a + 2)) := by
    rw [h1.tmp, show 32 * (b' + 1) - a = 2 + (32 * (b' + 1) - (a + 2)) by omega, tetrOut_add]; rfl
  have e1 : (KXof.refill H 2 2 c1).tmp.take 2 = [tetrByte H m a, tetrByte H m (a + 1)] := by rw [ht]; rfl
  have e2 : (KXof.refill H 2 2 c1).tmp.drop 2 = tetrOut H m (a + 2) (32 * (b' + 1) - (a + 2)) := by rw [ht]; rfl
  rw [e1, e2, toTwoBytes_two _ _ (tetrByte_lt hb _ _) (tetrByte_lt hb _ _)]
  exact ⟨_, rfl, Or.inr ⟨b', h1.last, h2, rfl⟩⟩

def keccaXofLawful (H : Bytes → Bytes) (hH : ∀ x, (H x).length = 32) (hb : ∀ x, IsBytes (H x)) : Lawful (keccaXof H) (fun _ => True) (tetrByte H) none where
  at' m k s := KPos H m k s
  seed a b _ := ⟨⟨[a, b], none, []⟩, rfl, Or.inl ⟨rfl, rfl, by simp⟩⟩
  refuse a b h := absurd trivial h
  read m k s h _ := kread_spec hH hb m k s h
  readErr m k s L _ h := by cases h

end Verif.Hash
