import Verif.NTT.Refine
import Verif.Ring.Quot
import Verif.NTT.Spec

/-! Correctness of the transforms for any table obeying the tree law. -/

namespace Verif.NTT

open Verif.Packing (W)
open Finset Verif.Ring

/-- What the proofs need of a pair of tables. -/
structure Law (q k : ℕ) (psi psi' : ℕ → ℕ) : Prop where
  one : (psi 0 : ZMod q) = 1
  sq : ∀ i, 0 < i → i < 2 ^ k → (psi i : ZMod q) ^ 2 = node (fun i => (psi i : ZMod q)) i
  inv : ∀ i, 0 < i → i < 2 ^ k → (psi i : ZMod q) * psi' i = 1

@[simp] theorem length_toZ (q : ℕ) (a : List ℕ) : (toZ q a).length = a.length := by simp [toZ]

theorem at'_toZ (q : ℕ) (a : List ℕ) (x : ℕ) (h : x < a.length) : at' (toZ q a) x = res q a x := by
  rw [at'_lt _ _ (by simpa using h)]
  unfold toZ res
  rw [List.getElem_map, getElem!_pos a x h]

theorem ev_toZ (q : ℕ) (a : List ℕ) (r : ZMod q) : ev r (toZ q a) = ∑ k ∈ range a.length, res q a k * r ^ k := by
  unfold ev
  rw [length_toZ]
  apply sum_congr rfl
  intro k hk
  rw [at'_toZ q a k (by simpa using hk)]; rfl

theorem list_eq_of_res {q : ℕ} (a b : List ℕ) (hl : a.length = b.length) (ha : ∀ x < a.length, a[x]! < q)
    (hb : ∀ x < a.length, b[x]! < q) (h : ∀ x < a.length, res q a x = res q b x) : a = b := by
  apply List.ext_getElem hl
  intro x h1 h2
  have e := h x h1
  have e1 := ha x h1
  have e2 := hb x h1
  unfold res at e
  rw [getElem!_pos a x h1] at e e1
  rw [getElem!_pos b x h2] at e e2
  rw [ZMod.natCast_eq_natCast_iff] at e
  exact Nat.ModEq.eq_of_lt_of_lt e e1 e2

theorem toZ_eq_of_res {q : ℕ} (a : List ℕ) (l : List (ZMod q)) (hl : a.length = l.length)
    (h : ∀ x < a.length, res q a x = at' l x) : toZ q a = l := by
  apply List.ext_getElem (by simpa using hl)
  intro x h1 h2
  have h1' : x < a.length := by simpa using h1
  rw [← at'_lt _ _ h1, ← at'_lt _ _ h2, at'_toZ q a x h1', h x h1']

variable {q k : ℕ} {psi psi' : ℕ → ℕ}

theorem Law.node_pow (L : Law q k psi psi') (x : ℕ) (hx : x < 2 ^ k) :
    node (fun i => (psi i : ZMod q)) (2 ^ k + x) ^ 2 ^ k = -1 := by
  have := NTT.node_pow (fun i => (psi i : ZMod q)) k 1 x hx (fun i h1 h2 => L.sq i (by omega) (by omega)) (by omega)
  rw [one_mul] at this
  rw [this]
  unfold node
  norm_num [L.one]

theorem Law.fw_eval (L : Law q k psi psi') (h0 : 0 < q) (hq : q < W) (a : List ℕ) (ha : a.length = 2 ^ k) (x : ℕ) (hx : x < 2 ^ k) :
    res q (nttFw psi q (2 ^ k) a) x = ev (node (fun i => (psi i : ZMod q)) (2 ^ k + x)) (toZ q a) := by
  obtain ⟨_, _, h3⟩ := nttFw_spec psi h0 hq k a ha
  rw [h3 x hx, ev_toZ, ha]
  have := FL_eval (fun i => (psi i : ZMod q)) (2 ^ k) L.sq k 1 (res q a) 0 x (by omega) hx (by omega)
  simp only [zero_mul, zero_add, add_zero, one_mul] at this
  rw [this]

theorem Law.inv_fw (L : Law q k psi psi') (h0 : 0 < q) (hq : q < W) (nm1 : ℕ) (hn : ((2 ^ k : ℕ) : ZMod q) * nm1 = 1) (c : List ℕ)
    (hc : c.length = 2 ^ k) (hr : ∀ x < 2 ^ k, c[x]! ≤ q) (b : ℕ → ZMod q)
    (h : ∀ x < 2 ^ k, res q c x = FL (fun i => (psi i : ZMod q)) k 1 b x) :
    ∀ x < 2 ^ k, res q (nttInv psi' q nm1 (2 ^ k) c) x = b x := by
  intro x hx
  obtain ⟨_, _, h3⟩ := nttInv_spec psi' h0 hq nm1 k c hc hr
  rw [h3 x hx, IL_congr _ k 1 _ (FL (fun i => (psi i : ZMod q)) k 1 b) (fun y hy => h y (by omega)) x (by omega),
    IL_FL _ _ k 1 b (fun j h1 h2 => L.inv j (by omega) (by omega)) (by omega) x (by omega)]
  have : (2 : ZMod q) ^ k * nm1 = 1 := by rw [← hn]; push_cast; ring
  linear_combination b x * this

theorem Law.fw_inv (L : Law q k psi psi') (h0 : 0 < q) (hq : q < W) (nm1 : ℕ) (hn : ((2 ^ k : ℕ) : ZMod q) * nm1 = 1) (c : List ℕ)
    (hc : c.length = 2 ^ k) (hr : ∀ x < 2 ^ k, c[x]! ≤ q) :
    ∀ x < 2 ^ k, res q (nttFw psi q (2 ^ k) (nttInv psi' q nm1 (2 ^ k) c)) x = res q c x := by
  intro x hx
  obtain ⟨g1, _, g3⟩ := nttInv_spec psi' h0 hq nm1 k c hc hr
  obtain ⟨_, _, h3⟩ := nttFw_spec psi h0 hq k (nttInv psi' q nm1 (2 ^ k) c) g1
  rw [h3 x hx, FL_congr _ k 1 _ (fun y => (nm1 : ZMod q) * IL (fun i => (psi' i : ZMod q)) k 1 (res q c) y)
    (fun y hy => by rw [g3 y (by omega)]; ring) x (by omega), FL_smul,
    FL_IL _ _ k 1 _ (fun j h1 h2 => L.inv j (by omega) (by omega)) (by omega) x (by omega)]
  have : (2 : ZMod q) ^ k * nm1 = 1 := by rw [← hn]; push_cast; ring
  linear_combination res q c x * this

theorem getElem!_vecMul (q n : ℕ) (a b : List ℕ) (x : ℕ) (hx : x < n) : (vecMul q n a b)[x]! = mulmod a[x]! b[x]! q := by
  unfold vecMul
  rw [List.getElem!_eq_getElem?_getD, List.getElem?_map, List.getElem?_eq_getElem (by simpa using hx)]
  simp

@[simp] theorem length_vecMul (q n : ℕ) (a b : List ℕ) : (vecMul q n a b).length = n := by simp [vecMul]

theorem res_vecMul (h0 : 0 < q) (n : ℕ) (a b : List ℕ) (x : ℕ) (hx : x < n) : res q (vecMul q n a b) x = res q a x * res q b x := by
  unfold res; rw [getElem!_vecMul _ _ _ _ _ hx, cast_mulmod h0]

theorem vecMul_lt (h0 : 0 < q) (n : ℕ) (a b : List ℕ) (x : ℕ) (hx : x < n) : (vecMul q n a b)[x]! < q := by
  rw [getElem!_vecMul _ _ _ _ _ hx]; exact mulmod_lt h0 _ _

/-- half multiplication by the transform of `h` is the product modulo `X^n + 1` -/
theorem Law.half_mul (L : Law q k psi psi') (h0 : 0 < q) (hq : q < W) (nm1 : ℕ) (hn : ((2 ^ k : ℕ) : ZMod q) * nm1 = 1)
    (a b : List ℕ) (ha : a.length = 2 ^ k) (h : List (ZMod q)) (hh : h.length = 2 ^ k)
    (hb : ∀ x < 2 ^ k, res q b x = ev (node (fun i => (psi i : ZMod q)) (2 ^ k + x)) h) :
    toZ q (nttInv psi' q nm1 (2 ^ k) (vecMul q (2 ^ k) (nttFw psi q (2 ^ k) a) b)) = negMul (2 ^ k) (toZ q a) h := by
  have hlen := (nttInv_spec psi' h0 hq nm1 k (vecMul q (2 ^ k) (nttFw psi q (2 ^ k) a) b) (by simp) (fun x hx => (vecMul_lt h0 _ _ _ x hx).le)).1
  apply toZ_eq_of_res _ _ (by rw [hlen, length_negMul])
  intro x hx
  rw [hlen] at hx
  refine L.inv_fw h0 hq nm1 hn _ (by simp) (fun x hx => (vecMul_lt h0 _ _ _ x hx).le)
    (at' (negMul (2 ^ k) (toZ q a) h)) (fun y hy => ?_) x hx
  rw [res_vecMul h0 _ _ _ y hy, L.fw_eval h0 hq a ha y hy, hb y hy,
    ← ev_negMul _ (2 ^ k) (L.node_pow y hy) (toZ q a) h (by simpa using ha) hh]
  have := FL_eval (fun i => (psi i : ZMod q)) (2 ^ k) L.sq k 1 (at' (negMul (2 ^ k) (toZ q a) h)) 0 y (by omega) hy (by omega)
  simp only [zero_mul, zero_add, add_zero, one_mul] at this
  rw [this]
  unfold ev
  rw [length_negMul]
  rfl

end Verif.NTT
