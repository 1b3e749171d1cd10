import Mathlib.Algebra.BigOperators.Ring.Finset
import Mathlib.Tactic.Ring
import Mathlib.Tactic.LinearCombination

/-! Butterfly stages as functions `Nat → R`, and their algebra. -/

namespace Verif.NTT

open Finset

variable {R : Type} [CommRing R]

/-- forward stage -/
def Fst (S : ℕ → R) (t : ℕ) (a : ℕ → R) (x : ℕ) : R :=
  if x % (2 * t) < t then a x + S (x / (2 * t)) * a (x + t) else a (x - t) - S (x / (2 * t)) * a x

/-- inverse stage -/
def Ist (S : ℕ → R) (t : ℕ) (a : ℕ → R) (x : ℕ) : R :=
  if x % (2 * t) < t then a x + a (x + t) else (a (x - t) - a x) * S (x / (2 * t))

theorem divmod_add (t i k : ℕ) (hk : k < 2 * t) : (i * (2 * t) + k) / (2 * t) = i ∧ (i * (2 * t) + k) % (2 * t) = k := by
  have ht : 0 < 2 * t := by omega
  constructor
  · rw [add_comm, Nat.add_mul_div_right _ _ ht, Nat.div_eq_of_lt hk, zero_add]
  · rw [add_comm, Nat.add_mul_mod_self_right, Nat.mod_eq_of_lt hk]

theorem Fst_lo (S : ℕ → R) (t i k : ℕ) (a : ℕ → R) (hk : k < t) :
    Fst S t a (i * (2 * t) + k) = a (i * (2 * t) + k) + S i * a (i * (2 * t) + k + t) := by
  obtain ⟨h1, h2⟩ := divmod_add t i k (by omega)
  unfold Fst; rw [h1, h2, if_pos hk]

theorem Fst_hi (S : ℕ → R) (t i k : ℕ) (a : ℕ → R) (hk : k < t) :
    Fst S t a (i * (2 * t) + k + t) = a (i * (2 * t) + k) - S i * a (i * (2 * t) + k + t) := by
  obtain ⟨h1, h2⟩ := divmod_add t i (k + t) (by omega)
  rw [← add_assoc] at h1 h2
  unfold Fst; rw [h1, h2, if_neg (by omega), Nat.add_sub_cancel]

theorem Ist_lo (S : ℕ → R) (t i k : ℕ) (a : ℕ → R) (hk : k < t) :
    Ist S t a (i * (2 * t) + k) = a (i * (2 * t) + k) + a (i * (2 * t) + k + t) := by
  obtain ⟨h1, h2⟩ := divmod_add t i k (by omega)
  unfold Ist; rw [h2, if_pos hk]

theorem Ist_hi (S : ℕ → R) (t i k : ℕ) (a : ℕ → R) (hk : k < t) :
    Ist S t a (i * (2 * t) + k + t) = (a (i * (2 * t) + k) - a (i * (2 * t) + k + t)) * S i := by
  obtain ⟨h1, h2⟩ := divmod_add t i (k + t) (by omega)
  rw [← add_assoc] at h1 h2
  unfold Ist; rw [h1, h2, if_neg (by omega), Nat.add_sub_cancel]

/-- every index below `m * (2t)` is in the low or the high half of a group -/
theorem idx_cases (m t x : ℕ) (hx : x < m * (2 * t)) :
    ∃ i k, i < m ∧ k < t ∧ (x = i * (2 * t) + k ∨ x = i * (2 * t) + k + t) := by
  have ht : 0 < 2 * t := by
    rcases Nat.eq_zero_or_pos (2 * t) with h | h
    · rw [h] at hx; omega
    · exact h
  have hd := Nat.div_add_mod x (2 * t)
  have hm := Nat.mod_lt x ht
  have hi : x / (2 * t) < m := by rw [Nat.div_lt_iff_lt_mul ht]; exact hx
  rw [mul_comm] at hd
  by_cases h : x % (2 * t) < t
  · exact ⟨x / (2 * t), x % (2 * t), hi, h, Or.inl hd.symm⟩
  · exact ⟨x / (2 * t), x % (2 * t) - t, hi, by omega, Or.inr (by omega)⟩

theorem idx_lt (m t i k : ℕ) (hi : i < m) (hk : k < t) : i * (2 * t) + k + t < m * (2 * t) := by
  have : (i + 1) * (2 * t) ≤ m * (2 * t) := Nat.mul_le_mul_right _ hi
  rw [Nat.add_mul] at this; omega

theorem Fst_congr (S : ℕ → R) (m t : ℕ) (a b : ℕ → R) (h : ∀ x < m * (2 * t), a x = b x) :
    ∀ x < m * (2 * t), Fst S t a x = Fst S t b x := by
  intro x hx
  obtain ⟨i, k, hi, hk, rfl | rfl⟩ := idx_cases m t x hx <;> have := idx_lt m t i k hi hk
  · rw [Fst_lo _ _ _ _ _ hk, Fst_lo _ _ _ _ _ hk, h _ (by omega), h _ (by omega)]
  · rw [Fst_hi _ _ _ _ _ hk, Fst_hi _ _ _ _ _ hk, h _ (by omega), h _ (by omega)]

theorem Ist_congr (S : ℕ → R) (m t : ℕ) (a b : ℕ → R) (h : ∀ x < m * (2 * t), a x = b x) :
    ∀ x < m * (2 * t), Ist S t a x = Ist S t b x := by
  intro x hx
  obtain ⟨i, k, hi, hk, rfl | rfl⟩ := idx_cases m t x hx <;> have := idx_lt m t i k hi hk
  · rw [Ist_lo _ _ _ _ _ hk, Ist_lo _ _ _ _ _ hk, h _ (by omega), h _ (by omega)]
  · rw [Ist_hi _ _ _ _ _ hk, Ist_hi _ _ _ _ _ hk, h _ (by omega), h _ (by omega)]

theorem Ist_Fst (S S' : ℕ → R) (m t : ℕ) (a : ℕ → R) (hS : ∀ i < m, S i * S' i = 1) :
    ∀ x < m * (2 * t), Ist S' t (Fst S t a) x = 2 * a x := by
  intro x hx
  obtain ⟨i, k, hi, hk, rfl | rfl⟩ := idx_cases m t x hx
  · rw [Ist_lo _ _ _ _ _ hk, Fst_lo _ _ _ _ _ hk, Fst_hi _ _ _ _ _ hk]; ring
  · rw [Ist_hi _ _ _ _ _ hk, Fst_lo _ _ _ _ _ hk, Fst_hi _ _ _ _ _ hk]
    linear_combination 2 * a (i * (2 * t) + k + t) * hS i hi

theorem Fst_Ist (S S' : ℕ → R) (m t : ℕ) (a : ℕ → R) (hS : ∀ i < m, S i * S' i = 1) :
    ∀ x < m * (2 * t), Fst S t (Ist S' t a) x = 2 * a x := by
  intro x hx
  obtain ⟨i, k, hi, hk, rfl | rfl⟩ := idx_cases m t x hx
  · rw [Fst_lo _ _ _ _ _ hk, Ist_lo _ _ _ _ _ hk, Ist_hi _ _ _ _ _ hk]
    linear_combination (a (i * (2 * t) + k) - a (i * (2 * t) + k + t)) * hS i hi
  · rw [Fst_hi _ _ _ _ _ hk, Ist_lo _ _ _ _ _ hk, Ist_hi _ _ _ _ _ hk]
    linear_combination (a (i * (2 * t) + k + t) - a (i * (2 * t) + k)) * hS i hi

theorem Fst_smul (S : ℕ → R) (t : ℕ) (c : R) (a : ℕ → R) (x : ℕ) : Fst S t (fun x => c * a x) x = c * Fst S t a x := by
  unfold Fst; split <;> ring

theorem Ist_smul (S : ℕ → R) (t : ℕ) (c : R) (a : ℕ → R) (x : ℕ) : Ist S t (fun x => c * a x) x = c * Ist S t a x := by
  unfold Ist; split <;> ring

/-- all forward stages from `m` groups of length `2^d` down to length 1 -/
def FL (psi : ℕ → R) : ℕ → ℕ → (ℕ → R) → ℕ → R
  | 0, _, a => a
  | d + 1, m, a => FL psi d (2 * m) (Fst (fun i => psi (m + i)) (2 ^ d) a)

/-- the inverse stages in the opposite order -/
def IL (psi : ℕ → R) : ℕ → ℕ → (ℕ → R) → ℕ → R
  | 0, _, a => a
  | d + 1, m, a => Ist (fun i => psi (m + i)) (2 ^ d) (IL psi d (2 * m) a)

theorem size_eq (d m : ℕ) : m * 2 ^ (d + 1) = m * (2 * 2 ^ d) ∧ m * 2 ^ (d + 1) = 2 * m * 2 ^ d := by
  constructor <;> rw [pow_succ] <;> ring

theorem FL_congr (psi : ℕ → R) : ∀ (d m : ℕ) (a b : ℕ → R), (∀ x < m * 2 ^ d, a x = b x) →
    ∀ x < m * 2 ^ d, FL psi d m a x = FL psi d m b x := by
  intro d
  induction d with
  | zero => intro m a b h x hx; exact h x hx
  | succ d ih =>
    intro m a b h x hx
    obtain ⟨h1, h2⟩ := size_eq d m
    apply ih (2 * m) _ _ _ x (by omega)
    intro y hy
    exact Fst_congr _ m _ a b (fun z hz => h z (by omega)) y (by omega)

theorem IL_congr (psi : ℕ → R) : ∀ (d m : ℕ) (a b : ℕ → R), (∀ x < m * 2 ^ d, a x = b x) →
    ∀ x < m * 2 ^ d, IL psi d m a x = IL psi d m b x := by
  intro d
  induction d with
  | zero => intro m a b h x hx; exact h x hx
  | succ d ih =>
    intro m a b h x hx
    obtain ⟨h1, h2⟩ := size_eq d m
    exact Ist_congr _ m _ _ _ (fun z hz => ih (2 * m) a b (fun w hw => h w (by omega)) z (by omega)) x (by omega)

theorem FL_smul (psi : ℕ → R) (c : R) : ∀ (d m : ℕ) (a : ℕ → R) (x : ℕ), FL psi d m (fun x => c * a x) x = c * FL psi d m a x := by
  intro d
  induction d with
  | zero => intro m a x; rfl
  | succ d ih =>
    intro m a x
    show FL psi d (2 * m) (Fst _ _ fun x => c * a x) x = _
    rw [show Fst (fun i => psi (m + i)) (2 ^ d) (fun x => c * a x) = fun x => c * Fst (fun i => psi (m + i)) (2 ^ d) a x from
      funext (Fst_smul _ _ c a), ih]
    rfl

theorem IL_FL (psi psi' : ℕ → R) : ∀ (d m : ℕ) (a : ℕ → R), (∀ j, m ≤ j → j < m * 2 ^ d → psi j * psi' j = 1) → 0 < m →
    ∀ x < m * 2 ^ d, IL psi' d m (FL psi d m a) x = 2 ^ d * a x := by
  intro d
  induction d with
  | zero => intro m a _ _ x _; simp [IL, FL]
  | succ d ih =>
    intro m a h hm x hx
    obtain ⟨h1, h2⟩ := size_eq d m
    have h4 : m * 2 ≤ m * 2 ^ (d + 1) := Nat.mul_le_mul_left _ (by rw [pow_succ]; have := Nat.one_le_two_pow (n := d); omega)
    show Ist (fun i => psi' (m + i)) (2 ^ d) (IL psi' d (2 * m) (FL psi d (2 * m) (Fst (fun i => psi (m + i)) (2 ^ d) a))) x = _
    rw [Ist_congr _ m _ _ (fun y => 2 ^ d * Fst (fun i => psi (m + i)) (2 ^ d) a y)
      (fun z hz => ih (2 * m) _ (fun j hj hj' => h j (by omega) (by omega)) (by omega) z (by omega)) x (by omega), Ist_smul,
      Ist_Fst _ _ m _ _ (fun i hi => h _ (by omega) (by omega)) x (by omega), pow_succ]
    ring

theorem FL_IL (psi psi' : ℕ → R) : ∀ (d m : ℕ) (a : ℕ → R), (∀ j, m ≤ j → j < m * 2 ^ d → psi j * psi' j = 1) → 0 < m →
    ∀ x < m * 2 ^ d, FL psi d m (IL psi' d m a) x = 2 ^ d * a x := by
  intro d
  induction d with
  | zero => intro m a _ _ x _; simp [IL, FL]
  | succ d ih =>
    intro m a h hm x hx
    obtain ⟨h1, h2⟩ := size_eq d m
    have h4 : m * 2 ≤ m * 2 ^ (d + 1) := Nat.mul_le_mul_left _ (by rw [pow_succ]; have := Nat.one_le_two_pow (n := d); omega)
    show FL psi d (2 * m) (Fst (fun i => psi (m + i)) (2 ^ d) (Ist (fun i => psi' (m + i)) (2 ^ d) (IL psi' d (2 * m) a))) x = _
    rw [FL_congr psi d (2 * m) _ (fun y => 2 * IL psi' d (2 * m) a y)
      (fun z hz => Fst_Ist _ _ m _ _ (fun i hi => h _ (by omega) (by omega)) z (by omega)) x (by omega), FL_smul,
      ih (2 * m) _ (fun j hj hj' => h j (by omega) (by omega)) (by omega) x (by omega), pow_succ]
    ring

/-- the root attached to node `j` of the transform tree: `± psi[j/2]` -/
def node (psi : ℕ → R) (j : ℕ) : R := if j % 2 = 0 then psi (j / 2) else -psi (j / 2)

theorem node_pow (psi : ℕ → R) : ∀ (d j y : ℕ), y < 2 ^ d → (∀ i, j ≤ i → 2 * i ≤ j * 2 ^ d + y → psi i ^ 2 = node psi i) → 0 < j →
    node psi (j * 2 ^ d + y) ^ 2 ^ d = node psi j := by
  intro d
  induction d with
  | zero => intro j y hy _ _; have : y = 0 := by simpa using hy
            subst this; simp
  | succ d ih =>
    intro j y hy h hj
    have e1 : j * 2 ^ (d + 1) = 2 * (j * 2 ^ d) := by rw [pow_succ]; ring
    have h1 : (j * 2 ^ (d + 1) + y) / 2 = j * 2 ^ d + y / 2 := by rw [e1]; omega
    have hy2 : y / 2 < 2 ^ d := by rw [pow_succ] at hy; omega
    have hsq : node psi (j * 2 ^ (d + 1) + y) ^ 2 = psi ((j * 2 ^ (d + 1) + y) / 2) ^ 2 := by
      unfold node; split
      · rfl
      · rw [neg_sq]
    have hj2 : j ≤ j * 2 ^ d := Nat.le_mul_of_pos_right _ (Nat.two_pow_pos d)
    have e2 : (2 : ℕ) ^ (d + 1) = 2 * 2 ^ d := by rw [pow_succ]; ring
    rw [show node psi (j * 2 ^ (d + 1) + y) ^ 2 ^ (d + 1) = (node psi (j * 2 ^ (d + 1) + y) ^ 2) ^ 2 ^ d by rw [← pow_mul, ← e2],
      hsq, h1, h _ (by omega) (by omega)]
    exact ih j (y / 2) hy2 (fun i h1 h2 => h i h1 (by omega)) hj

/-- Each output of the forward stages is the value of the input block at the root of its node. -/
theorem FL_eval (psi : ℕ → R) (N : ℕ) (h : ∀ i, 0 < i → i < N → psi i ^ 2 = node psi i) : ∀ (d m : ℕ) (a : ℕ → R) (i y : ℕ),
    i < m → y < 2 ^ d → m * 2 ^ d ≤ N →
    FL psi d m a (i * 2 ^ d + y) = ∑ k ∈ range (2 ^ d), a (i * 2 ^ d + k) * node psi ((m + i) * 2 ^ d + y) ^ k := by
  intro d
  induction d with
  | zero => intro m a i y _ hy _; have : y = 0 := by simpa using hy
            subst this; simp [FL]
  | succ d ih =>
    intro m a i y hi hy hN
    show FL psi d (2 * m) (Fst (fun i => psi (m + i)) (2 ^ d) a) (i * 2 ^ (d + 1) + y) = _
    have e1 : 2 ^ (d + 1) = 2 * 2 ^ d := by rw [pow_succ]; ring
    obtain ⟨b, y', hb, hy', rfl⟩ : ∃ b y', b < 2 ∧ y' < 2 ^ d ∧ y = b * 2 ^ d + y' := by
      by_cases hc : y < 2 ^ d
      · exact ⟨0, y, by omega, hc, by omega⟩
      · exact ⟨1, y - 2 ^ d, by omega, by omega, by omega⟩
    have e2 : i * 2 ^ (d + 1) + (b * 2 ^ d + y') = (2 * i + b) * 2 ^ d + y' := by rw [e1]; ring
    have e3 : (m + i) * 2 ^ (d + 1) + (b * 2 ^ d + y') = (2 * m + (2 * i + b)) * 2 ^ d + y' := by rw [e1]; ring
    have e4 : 2 * m * 2 ^ d = m * 2 ^ (d + 1) := by rw [e1]; ring
    rw [e2, ih (2 * m) _ (2 * i + b) y' (by omega) hy' (by omega), e3]
    have hpow : node psi ((2 * m + (2 * i + b)) * 2 ^ d + y') ^ 2 ^ d = node psi (2 * m + (2 * i + b)) := by
      apply node_pow psi d _ y' hy' _ (by omega)
      intro j hj hj'
      apply h j (by omega)
      have : (2 * m + (2 * i + b) + 1) * 2 ^ d ≤ (4 * m) * 2 ^ d := Nat.mul_le_mul_right _ (by omega)
      have e5 : 4 * m * 2 ^ d = 2 * (2 * m * 2 ^ d) := by ring
      rw [Nat.add_mul _ 1] at this
      omega
    obtain ⟨r, hr⟩ : ∃ r, r = node psi ((2 * m + (2 * i + b)) * 2 ^ d + y') := ⟨_, rfl⟩
    rw [← hr] at hpow ⊢
    rw [e1, two_mul (2 ^ d), sum_range_add, ← sum_add_distrib]
    apply sum_congr rfl
    intro k hk
    have hk : k < 2 ^ d := by simpa using hk
    have e6 : i * (2 ^ d + 2 ^ d) = i * (2 * 2 ^ d) := by ring
    rw [pow_add, hpow, e6, show i * (2 * 2 ^ d) + (2 ^ d + k) = i * (2 * 2 ^ d) + k + 2 ^ d by ring]
    have hn : (2 * m + (2 * i + b)) / 2 = m + i := by omega
    rcases (by omega : b = 0 ∨ b = 1) with rfl | rfl
    · rw [show (2 * i + 0) * 2 ^ d + k = i * (2 * 2 ^ d) + k by ring, Fst_lo _ _ _ _ _ hk, node, if_pos (by omega), hn]
      ring
    · rw [show (2 * i + 1) * 2 ^ d + k = i * (2 * 2 ^ d) + k + 2 ^ d by ring, Fst_hi _ _ _ _ _ hk, node, if_neg (by omega), hn]
      ring

/-- if the last stage has zero twiddles, neighbouring outputs coincide -/
theorem FL_dead (psi : ℕ → R) : ∀ (d m : ℕ) (a : ℕ → R), (∀ j, m * 2 ^ d ≤ j → psi j = 0) →
    ∀ i, FL psi (d + 1) m a (2 * i) = FL psi (d + 1) m a (2 * i + 1) := by
  intro d
  induction d with
  | zero =>
    intro m a h i
    show Fst (fun i => psi (m + i)) (2 ^ 0) a (2 * i) = Fst (fun i => psi (m + i)) (2 ^ 0) a (2 * i + 1)
    rw [pow_zero]
    have e1 := Fst_lo (fun i => psi (m + i)) 1 i 0 a (by omega)
    have e2 := Fst_hi (fun i => psi (m + i)) 1 i 0 a (by omega)
    rw [show i * (2 * 1) + 0 = 2 * i by omega] at e1 e2
    rw [e1, e2, h (m + i) (by omega)]; ring
  | succ d ih =>
    intro m a h i
    exact ih (2 * m) _ (fun j hj => h j (by rw [(size_eq d m).2]; exact hj)) i

end Verif.NTT
