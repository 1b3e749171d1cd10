import Verif.CRef.SignDynTree
import Verif.CRef.Norm

/-! # Exactness of the signer: the floating-point computation gives the lattice vector of the drawn integers -/

namespace Verif.CRef.SignDyn

open Verif.Ring Verif.CRef.Fpr Verif.CRef.Fft Verif.CRef.SignSampler Verif.Falcon

theorem get_getD (l : List ℤ) (j : ℕ) : l[j]! = l.getD j 0 := by
  rw [List.getElem!_eq_getElem?_getD, List.getD_eq_getElem?_getD]; rfl

theorem toFpr_holds (logn : ℕ) (f : List ℤ) (h : f.length = 2 ^ logn) (B : ℤ) (hB : B < 2 ^ 53) (h0 : 0 ≤ B) (hf : ∀ x ∈ f, |x| ≤ B) : Holds (2 ^ logn) (toFpr f logn) f := by
  unfold toFpr
  refine ⟨by rw [List.length_map, List.length_range], h, fun j hj => ?_⟩
  rw [map_get _ _ j hj, get_getD]
  exact val_ofInt _ ((getD_bound f B h0 hf j).trans_lt hB)

theorem vec8_bound (n : ℕ) (f : List ℤ) (h : Vec8 n f) : ∀ x ∈ f, |x| ≤ 128 := fun x hx => abs_le.2 ⟨(h.2 x hx).1, (h.2 x hx).2.trans (by norm_num)⟩

theorem small_ap (s : ℕ) (hs : s ≤ 9) (f : List ℤ) (h : Vec8 (2 ^ (s + 1)) f) : Ap s (fft (toFpr f (s + 1)) (s + 1)) f (8 * s) (2 ^ (s + 1) * 128) := by
  have hb := vec8_bound _ f h
  refine fft_ap s hs _ f 128 (inRange_of _ (by norm_num) (by norm_num)) (toFpr_holds _ f h.1 128 (by norm_num) (by norm_num) hb) fun j _ => ?_
  exact_mod_cast getD_bound f 128 (by norm_num) hb j

theorem negCoeff_neg (n : ℕ) (a b : List ℤ) (hb : b.length = n) (k : ℕ) : negCoeff n a (b.map (- ·)) k = - negCoeff n a b k := by
  unfold negCoeff
  rw [← Finset.sum_neg_distrib]
  refine Finset.sum_congr rfl fun i _ => ?_
  rw [← Finset.sum_neg_distrib]
  refine Finset.sum_congr rfl fun j hj => ?_
  rw [getD_map_neg b n hb j (Finset.mem_range.1 hj)]
  split
  · ring
  · split <;> ring

theorem negMul_get (n : ℕ) (a b : List ℤ) (j : ℕ) (hj : j < n) : (negMul n a b).getD j 0 = negCoeff n a b j := by
  unfold negMul
  rw [List.getD_eq_getElem?_getD, List.getElem?_map, List.getElem?_range hj]; rfl

/-- The two rounded coefficients, before the casts. -/
theorem point_exact (s : ℕ) (hs : s ≤ 9) (f g F G : List ℤ) (hf : Vec8 (2 ^ (s + 1)) f) (hg : Vec8 (2 ^ (s + 1)) g) (hF : Vec8 (2 ^ (s + 1)) F) (hG : Vec8 (2 ^ (s + 1)) G)
    (t0 t1 : List W) (z0 z1 : List ℤ) (Z : ℕ) (hZ : 1 ≤ Z) (hZ2 : Z ≤ 2 ^ 15) (h0 : IntFft Z (s + 1) t0 z0) (h1 : IntFft Z (s + 1) t1 z1) : ∀ j < 2 ^ (s + 1),
    int64 (rint (point (basis f g F G (s + 1)) t0 t1 (s + 1)).1[j]!) = (negMul (2 ^ (s + 1)) z0 g).getD j 0 + (negMul (2 ^ (s + 1)) z1 G).getD j 0 ∧
    int64 (rint (point (basis f g F G (s + 1)) t0 t1 (s + 1)).2[j]!) = -((negMul (2 ^ (s + 1)) z0 f).getD j 0 + (negMul (2 ^ (s + 1)) z1 F).getD j 0) := by
  have Z1 : (1 : ℝ) ≤ Z := by exact_mod_cast hZ
  have Z2 : (Z : ℝ) ≤ 2 ^ 15 := by exact_mod_cast hZ2
  have s9 : (s : ℝ) ≤ 9 := by exact_mod_cast hs
  have s0 : (0 : ℝ) ≤ s := by positivity
  have n1 : (1 : ℝ) ≤ 2 ^ (s + 1) := one_le_pow₀ (by norm_num)
  have n2 : (2 : ℝ) ^ (s + 1) ≤ 2 ^ 10 := pow_le_pow_right₀ (by norm_num) (by omega)
  have h0' : Ap s t0 z0 (8 * s) (2 ^ (s + 1) * Z) := h0
  have h1' : Ap s t1 z1 (8 * s) (2 ^ (s + 1) * Z) := h1
  have cr : 0 ≤ 8 * (s : ℝ) ∧ 8 * (s : ℝ) ≤ 2 ^ 20 := ⟨by positivity, by norm_num; linarith⟩
  have q1 : (1 : ℝ) ≤ (2 ^ (s + 1) * Z) * (2 ^ (s + 1) * 128) := one_le_mul_of_one_le_of_one_le (one_le_mul_of_one_le_of_one_le n1 Z1) (one_le_mul_of_one_le_of_one_le n1 (by norm_num))
  have q2 : (2 : ℝ) ^ (s + 1) * Z * (2 ^ (s + 1) * 128) ≤ 2 ^ 42 := by
    have a := mul_le_mul n2 Z2 (by linarith) (by norm_num)
    have b := mul_le_mul a (mul_le_mul_of_nonneg_right n2 (show (0 : ℝ) ≤ 128 by norm_num)) (by positivity) (by norm_num)
    exact b.trans (by norm_num)
  have r1 := inRange_of _ q1 (q2.trans (by norm_num))
  have r2 := inRange_of ((2 : ℝ) ^ (s + 1) * Z * (2 ^ (s + 1) * 128) + 2 ^ (s + 1) * Z * (2 ^ (s + 1) * 128)) (by linarith) (by norm_num at *; linarith)
  have lb : ∀ l : List ℤ, l.length = 2 ^ (s + 1) → (l.map (- ·)).length = 2 ^ (s + 1) := fun l h => by rw [List.length_map, h]
  -- any sum of two products
  have key : ∀ (x y b d : List W) (a1 a2 b1 d1 : List ℤ), Ap s x a1 (8 * s) (2 ^ (s + 1) * Z) → Ap s y a2 (8 * s) (2 ^ (s + 1) * Z) → Ap s b b1 (8 * s) (2 ^ (s + 1) * 128) → Ap s d d1 (8 * s) (2 ^ (s + 1) * 128) →
      ∀ j < 2 ^ (s + 1), int64 (rint (ifft (polyAdd (polyMulFft x b (s + 1)) (polyMulFft y d (s + 1)) (s + 1)) (s + 1))[j]!) = (negMul (2 ^ (s + 1)) a1 b1).getD j 0 + (negMul (2 ^ (s + 1)) a2 d1).getD j 0 := by
    intro x y b d a1 a2 b1 d1 hx hy hb hd j hj
    have m1 := mul_ap s _ _ _ _ _ _ _ _ hx hb cr cr r1
    have m2 := mul_ap s _ _ _ _ _ _ _ _ hy hd cr cr r1
    have ad := add_ap s _ _ _ _ _ _ _ m1 m2 ⟨by positivity, by norm_num; linarith⟩ r2
    have rd := round_ap s hs _ _ _ _ ad r2 ⟨by positivity, by norm_num; linarith⟩ ?_ (by norm_num at *; linarith)
    · rw [(rd.2 j hj).1, getD_zipWith_add _ _ (2 ^ (s + 1)) (length_negMul _ _ _) (length_negMul _ _ _) j hj]
    · have : (8 * (s : ℝ) + 8 * s + 6 + 3 + 14 * (s + 1)) * ((2 : ℝ) ^ (s + 1) * Z * (2 ^ (s + 1) * 128) + 2 ^ (s + 1) * Z * (2 ^ (s + 1) * 128)) ≤ 293 * 2 ^ 43 :=
        mul_le_mul (by linarith) (by norm_num at *; linarith) (by positivity) (by norm_num)
      norm_num at *; linarith
  intro j hj
  unfold point basis
  dsimp only
  refine ⟨key _ _ _ _ _ _ _ _ h0' h1' (small_ap s hs g hg) (small_ap s hs G hG) j hj, ?_⟩
  rw [key _ _ _ _ _ _ _ _ h1' h0' (neg_ap s _ _ _ _ (small_ap s hs F hF)) (neg_ap s _ _ _ _ (small_ap s hs f hf)) j hj,
    negMul_get _ _ _ j hj, negMul_get _ _ _ j hj, negMul_get _ _ _ j hj, negMul_get _ _ _ j hj, negCoeff_neg _ _ _ hF.1, negCoeff_neg _ _ _ hf.1]
  ring

theorem i32_word (w : W) : (4294967296 : ℤ) ∣ i32 w.toNat - int64 w := by
  unfold i32 int64
  have := w.isLt
  split <;> split <;> omega

theorem s1_exact (h : ℕ) (t : W) (x : ℤ) (e : int64 (rint t) = h - x) (hx : IsInt16 x) : s1Of h t = x := by
  unfold s1Of
  have d := i32_word (rint t)
  rw [e] at d
  generalize i32 (rint t).toNat = y at *
  obtain ⟨a, b⟩ := hx
  obtain ⟨k, hk⟩ := d
  unfold u32 i32
  have : ((h : ℤ) - y) % 4294967296 = x % 4294967296 := by
    rw [show (h : ℤ) - y = x + 4294967296 * (-k) by linarith, Int.add_mul_emod_self_left]
  rw [this]
  split <;> omega

theorem s2_exact (t : W) (x : ℤ) (e : int64 (rint t) = -x) (hx : IsInt16 x) : s2Of t = x := by
  unfold s2Of
  generalize rint t = w at *
  obtain ⟨a, b⟩ := hx
  unfold int64 at e
  have := w.isLt
  rw [BitVec.toNat_neg]
  unfold i16
  split at e <;> split <;> omega

theorem fold_one (s1 : List ℤ) (n : ℕ) (h1 : Vec16 n s1) (f : ℕ → ℤ) (hf : ∀ j < n, f j = s1[j]!) : ∀ m ≤ n,
    Track ((List.range m).foldl (fun st u => accum st (f u)) (0, 0)) (nsq (s1.take m)) := by
  intro m
  induction m with
  | zero =>
    intro _
    rw [List.range_zero, List.foldl_nil, List.take_zero]
    exact ⟨by decide, by decide, Or.inl (by decide)⟩
  | succ m ih =>
    intro hm
    have a1 : m < s1.length := by have := h1.1; omega
    rw [List.range_succ, List.foldl_append, List.foldl_cons, List.foldl_nil, nsq_take_succ s1 m a1]
    have b1 : IsInt16 s1[m]! := by rw [getElem!_pos s1 m a1]; exact h1.2 _ (List.getElem_mem a1)
    rw [hf m (by omega)]
    exact accum_track _ _ (ih (by omega)) _ b1

theorem sqn_exact (logn : ℕ) (hm : List ℕ) (t : List W) (s1 : List ℤ) (h1 : Vec16 (2 ^ logn) s1) (e : ∀ j < 2 ^ logn, s1Of hm[j]! t[j]! = s1[j]!) :
    sqnOf hm t logn < 2 ^ 32 ∧ (∀ b : ℕ, b < 2147483648 → (sqnOf hm t logn ≤ b ↔ normSq s1 ≤ b)) ∧ (normSq s1 < 2147483648 → (sqnOf hm t logn : ℤ) = normSq s1) := by
  have h := fold_one s1 (2 ^ logn) h1 (fun j => s1Of hm[j]! t[j]!) e (2 ^ logn) le_rfl
  rw [List.take_of_length_le h1.1.le] at h
  unfold sqnOf
  dsimp only
  generalize (List.range (2 ^ logn)).foldl (fun st u => accum st (s1Of hm[u]! t[u]!)) (0, 0) = r at *
  rw [← nsq_normSq]
  refine ⟨?_, fun b hb => ?_, fun hb => ?_⟩
  · obtain ⟨p1, p2, _⟩ := h
    refine Nat.or_lt_two_pow (n := 32) p1 ?_
    unfold neg32 sub32; omega
  · rw [track_final _ _ _ h hb]; norm_cast
  · obtain ⟨p1, p2, ⟨p3, p4, p5⟩ | ⟨p3, _⟩⟩ := h
    · rw [shift31 _ p2, if_pos p5, show neg32 0 = 0 by decide, Nat.or_zero, p4]
    · exfalso; have : nsq s1 < 2147483648 := by exact_mod_cast hb
      omega

theorem normSq_nonneg (l : List ℤ) : 0 ≤ normSq l := by rw [← nsq_normSq]; positivity

/-- The norm check of `do_sign_dyn` is exact on 16-bit vectors. -/
theorem check_exact (logn : ℕ) (hm : List ℕ) (t : List W) (s1 s2 : List ℤ) (h1 : Vec16 (2 ^ logn) s1) (h2 : Vec16 (2 ^ logn) s2) (e : ∀ j < 2 ^ logn, s1Of hm[j]! t[j]! = s1[j]!) :
    isShortHalf logn (sqnOf hm t logn) s2 = true ↔ normSq s1 + normSq s2 ≤ l2bound[logn]! := by
  obtain ⟨q1, q2, q3⟩ := sqn_exact logn hm t s1 h1 e
  rw [C77_is_short_half logn _ s2 h2 q1]
  have lb := l2bound_lt logn
  have n2 := normSq_nonneg s2
  have n1 := normSq_nonneg s1
  have k := q2 l2bound[logn]! lb
  rcases lt_or_ge (normSq s1) 2147483648 with c | c
  · rw [q3 c]
  · constructor
    · intro h
      have := k.1 (by omega)
      omega
    · intro h; omega

end Verif.CRef.SignDyn
