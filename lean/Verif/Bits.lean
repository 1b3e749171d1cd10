/-
Shared specification vocabulary: byte strings and bit strings.
Nothing here models a function of /repo on its own; these are the mathematical
notions ("the 8 bits of a byte, most significant first", "the number a bit string denotes")
used by the model files and the specifications.
-/

namespace Verif

/-- A Python `bytes` value is a list of naturals below 256. -/
abbrev Bytes := List Nat

/-- every entry is a byte -/
def IsBytes (x : Bytes) : Prop := ∀ b ∈ x, b < 256

instance (x : Bytes) : Decidable (IsBytes x) := by unfold IsBytes; infer_instance

/-- Errors of the Python / Solidity code, as values. -/
inductive Err where
  | indexError
  | valueError
  | assertError
  | typeError
  | runtimeError
  | revert (reason : String)
deriving DecidableEq, Repr

/-- `Except` results can be compared (needed for `decide`d examples). -/
instance instDecEqExcept {ε α : Type} [DecidableEq ε] [DecidableEq α] : DecidableEq (Except ε α) :=
  fun a b => match a, b with
  | .error e, .error e' => if h : e = e' then .isTrue (by rw [h]) else .isFalse (by intro h'; cases h'; exact h rfl)
  | .ok e, .ok e' => if h : e = e' then .isTrue (by rw [h]) else .isFalse (by intro h'; cases h'; exact h rfl)
  | .error _, .ok _ => .isFalse (by intro h; cases h)
  | .ok _, .error _ => .isFalse (by intro h; cases h)

/-- The number denoted by a bit string, most significant bit first (Python `int(s, 2)`). -/
def bitsNat : List Bool → Nat
  | [] => 0
  | b :: r => (if b then 2 ^ r.length else 0) + bitsNat r

/-- The `w`-bit binary representation, most significant bit first
(Python `format(v, '0{w}b')` for `v < 2^w`). -/
def natBits : Nat → Nat → List Bool
  | 0, _ => []
  | w + 1, v => v.testBit w :: natBits w v

/-- All the bits of a byte string, in order, most significant bit of each byte first. -/
def bytesBits (x : Bytes) : List Bool := x.flatMap (natBits 8)

/-- `k` zero bits -/
def zeros (k : Nat) : List Bool := List.replicate k false

/-- cut a bit string into bytes (complete groups of 8 only) -/
def packBits (u : List Bool) : Bytes :=
  (List.range (u.length / 8)).map fun i => bitsNat ((u.drop (8 * i)).take 8)

@[simp] theorem natBits_length (w v : Nat) : (natBits w v).length = w := by
  induction w with
  | zero => rfl
  | succ w ih => simp [natBits, ih]

theorem bitsNat_lt (u : List Bool) : bitsNat u < 2 ^ u.length := by
  induction u with
  | nil => simp [bitsNat]
  | cons b r ih =>
    simp only [bitsNat, List.length_cons, Nat.pow_succ]
    split <;> omega

theorem bitsNat_natBits (w v : Nat) : bitsNat (natBits w v) = v % 2 ^ w := by
  induction w with
  | zero => simp [natBits, bitsNat, Nat.mod_one]
  | succ w ih =>
    simp only [natBits, bitsNat, natBits_length, ih]
    rw [Nat.pow_succ, Nat.mod_mul, Nat.testBit_eq_decide_div_mod_eq]
    have : v / 2 ^ w % 2 = 0 ∨ v / 2 ^ w % 2 = 1 := by omega
    rcases this with h | h <;> simp [h, Nat.add_comm]

theorem natBits_mod (w v : Nat) : natBits w (v % 2 ^ w) = natBits w v := by
  suffices ∀ k, k ≤ w → natBits k (v % 2 ^ w) = natBits k v from this w (Nat.le_refl _)
  intro k
  induction k with
  | zero => intro _; rfl
  | succ k ih =>
    intro hk
    simp only [natBits]
    rw [ih (by omega), Nat.testBit_mod_two_pow]
    simp [show k < w by omega]

theorem natBits_bitsNat (u : List Bool) : natBits u.length (bitsNat u) = u := by
  induction u with
  | nil => rfl
  | cons b r ih =>
    simp only [List.length_cons, natBits, bitsNat]
    have hlt := bitsNat_lt r
    congr 1
    · cases b
      · simp [Nat.testBit_eq_decide_div_mod_eq, Nat.div_eq_of_lt hlt]
      · simp only [if_true]
        rw [Nat.testBit_two_pow_add_eq, Nat.testBit_lt_two_pow hlt]; rfl
    · rw [← natBits_mod]
      cases b
      · simp [Nat.mod_eq_of_lt hlt, ih]
      · simp [Nat.mod_eq_of_lt hlt, ih]

theorem bitsNat_inj {u v : List Bool} (hl : u.length = v.length) (h : bitsNat u = bitsNat v) : u = v := by
  rw [← natBits_bitsNat u, ← natBits_bitsNat v, hl, h]

theorem bitsNat_append (u v : List Bool) : bitsNat (u ++ v) = bitsNat u * 2 ^ v.length + bitsNat v := by
  induction u with
  | nil => simp [bitsNat]
  | cons b r ih =>
    simp only [List.cons_append, bitsNat, ih, List.length_append]
    cases b <;> simp [Nat.pow_add, Nat.add_mul, Nat.add_assoc]

theorem natBits_append (a b v : Nat) : natBits (a + b) v = natBits a (v / 2 ^ b) ++ natBits b v := by
  induction a with
  | zero => simp [natBits]
  | succ a ih =>
    rw [show a + 1 + b = (a + b) + 1 by omega]
    simp only [natBits, ih, List.cons_append, Nat.testBit_div_two_pow]

@[simp] theorem bytesBits_length (x : Bytes) : (bytesBits x).length = 8 * x.length := by
  induction x with
  | nil => rfl
  | cons b r ih => simp only [bytesBits, List.flatMap_cons, List.length_append, natBits_length,
      List.length_cons] at *; omega

@[simp] theorem bytesBits_nil : bytesBits [] = [] := rfl
@[simp] theorem bytesBits_cons (b : Nat) (r : Bytes) : bytesBits (b :: r) = natBits 8 b ++ bytesBits r := rfl
theorem bytesBits_append (x y : Bytes) : bytesBits (x ++ y) = bytesBits x ++ bytesBits y := by
  simp [bytesBits]

@[simp] theorem packBits_length (u : List Bool) : (packBits u).length = u.length / 8 := by
  simp [packBits]

theorem packBits_isBytes (u : List Bool) : IsBytes (packBits u) := by
  intro b hb
  simp only [packBits, List.mem_map, List.mem_range] at hb
  obtain ⟨i, _, rfl⟩ := hb
  refine Nat.lt_of_lt_of_le (bitsNat_lt _) ?_
  have : ((u.drop (8 * i)).take 8).length ≤ 8 := by simp; omega
  exact Nat.pow_le_pow_right (by decide : 2 > 0) this

theorem packBits_cons (a v : List Bool) (ha : a.length = 8) : packBits (a ++ v) = bitsNat a :: packBits v := by
  unfold packBits
  rw [List.length_append, ha, show (8 + v.length) / 8 = v.length / 8 + 1 by omega, List.range_succ_eq_map]
  simp only [List.map_cons, Nat.mul_zero, List.drop_zero, List.map_map]
  congr 1
  · rw [List.take_append_of_le_length (by omega), List.take_of_length_le (by omega)]
  · apply List.map_congr_left
    intro i _
    simp only [Function.comp]
    rw [show 8 * (i + 1) = a.length + 8 * i by omega, ← List.drop_drop, List.drop_left]

theorem packBits_bytesBits (x : Bytes) (hx : IsBytes x) : packBits (bytesBits x) = x := by
  induction x with
  | nil => rfl
  | cons b r ih =>
    rw [bytesBits_cons, packBits_cons _ _ (by simp), ih (fun c hc => hx c (by simp [hc])), bitsNat_natBits,
      Nat.mod_eq_of_lt (hx b (by simp))]

theorem bytesBits_packBits : ∀ (k : Nat) (u : List Bool), u.length = 8 * k → bytesBits (packBits u) = u := by
  intro k
  induction k with
  | zero => intro u hu; have : u = [] := by simpa using hu
            subst this; rfl
  | succ k ih =>
    intro u hu
    rw [← List.take_append_drop 8 u, packBits_cons _ _ (by simp; omega), bytesBits_cons, ih _ (by simp; omega)]
    congr 1
    have h8 : (u.take 8).length = 8 := by simp; omega
    have h := natBits_bitsNat (u.take 8)
    rwa [h8] at h

theorem bytesBits_inj {x y : Bytes} (hx : IsBytes x) (hy : IsBytes y) (h : bytesBits x = bytesBits y) : x = y := by
  rw [← packBits_bytesBits x hx, ← packBits_bytesBits y hy, h]

theorem bitsNat_zeros (k : Nat) : bitsNat (zeros k) = 0 := by
  induction k with
  | zero => rfl
  | succ k ih => simp only [zeros, List.replicate_succ, bitsNat] at *; simp [ih]

theorem natBits_zero (w : Nat) : natBits w 0 = zeros w := by
  induction w with
  | zero => rfl
  | succ w ih => simp only [natBits, ih, zeros, List.replicate_succ]; simp

end Verif
