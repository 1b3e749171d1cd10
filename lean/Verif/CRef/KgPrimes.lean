import Verif.CRef.KgNtt
import Mathlib.NumberTheory.LucasPrimality

/-! # C91: the table of small primes

Every entry is checked by a computation the kernel performs, and whose soundness is proved here: Lucas' test with the factorization of `p - 1`. -/

namespace Verif.CRef.Kg

/-! ## The test -/

/-- `a^e` modulo `m` by repeated squaring, for `e < 2^fuel`. -/
def powMod (m : ℕ) : ℕ → ℕ → ℕ → ℕ
  | 0, _, _ => 1 % m
  | fuel + 1, a, e => if e % 2 = 1 then a * powMod m fuel (a * a % m) (e / 2) % m else powMod m fuel (a * a % m) (e / 2)

theorem powMod_cast (m : ℕ) : ∀ fuel a e, e < 2 ^ fuel → ((powMod m fuel a e : ℕ) : ZMod m) = (a : ZMod m) ^ e := by
  intro fuel
  induction fuel with
  | zero => intro a e he; have : e = 0 := by simpa using he
            rw [this, pow_zero]; unfold powMod; rw [ZMod.natCast_mod, Nat.cast_one]
  | succ fuel ih =>
    intro a e he
    have h := ih (a * a % m) (e / 2) (by rw [pow_succ] at he; omega)
    rw [ZMod.natCast_mod, Nat.cast_mul, ← pow_two (a : ZMod m), ← pow_mul] at h
    unfold powMod
    split
    · next h1 =>
      rw [ZMod.natCast_mod, Nat.cast_mul, h, ← pow_succ']
      congr 1; omega
    · next h1 => rw [h]; congr 1; omega

theorem powMod_lt (m : ℕ) (hm : 0 < m) : ∀ fuel a e, powMod m fuel a e < m := by
  intro fuel
  induction fuel with
  | zero => intro a e; exact Nat.mod_lt _ hm
  | succ fuel ih => intro a e; unfold powMod; split; exacts [Nat.mod_lt _ hm, ih _ _]

/-- Trial division of `r` by the odd numbers from `d` on. -/
def trial (r : ℕ) : ℕ → ℕ → Bool
  | 0, _ => false
  | fuel + 1, d => if r < d * d then true else if r % d = 0 then false else trial r fuel (d + 2)

theorem trial_sound (r : ℕ) : ∀ fuel d, trial r fuel d = true → (∀ q, q.Prime → q ∣ r → d ≤ q ∨ r < q * q) → d % 2 = 1 → r % 2 = 1 → ∀ q, q.Prime → q ∣ r → r < q * q := by
  intro fuel
  induction fuel with
  | zero => intro d h; cases h
  | succ fuel ih =>
    intro d h hd ho hr q hq hqr
    unfold trial at h
    split at h
    · next hlt =>
      rcases hd q hq hqr with h1 | h1
      · exact lt_of_lt_of_le hlt (Nat.mul_le_mul h1 h1)
      · exact h1
    · split at h
      · cases h
      · next hnd =>
        refine ih (d + 2) h (fun q hq hqr => ?_) (by omega) hr q hq hqr
        rcases hd q hq hqr with h1 | h1
        · left
          have h2 : q ≠ d := by rintro rfl; exact hnd (Nat.mod_eq_zero_of_dvd hqr)
          have h3 : q ≠ d + 1 := by
            intro h3
            have : 2 ∣ q := by omega
            have := Dvd.dvd.trans this hqr
            omega
          omega
        · exact Or.inr h1

/-- An odd number at least 3 that passes trial division is prime. -/
theorem trial_prime (r : ℕ) (h3 : 3 ≤ r) (ho : r % 2 = 1) (h : trial r 513 3 = true) : r.Prime := by
  have key := trial_sound r 513 3 h (fun q hq hqr => Or.inl (by
    rcases hq.eq_two_or_odd with h | h
    · subst h; omega
    · have := hq.two_le; omega)) (by norm_num) ho
  have h1 := key _ (Nat.minFac_prime (by omega)) (Nat.minFac_dvd r)
  rw [← pow_two] at h1
  by_contra hn
  exact absurd (Nat.minFac_sq_le_self (by omega) hn) (by omega)

/-- A certificate: a primitive root, the power of two in `p - 1`, the odd prime factors of `p - 1`. -/
abbrev Cert := ℕ × ℕ × List ℕ

/-- Lucas' test. -/
def lucas (p : ℕ) (c : Cert) : Bool :=
  decide (2 ≤ p) && decide (p ≤ 2147483648) && decide (p - 1 = 2 ^ c.2.1 * c.2.2.prod) && decide (powMod p 31 c.1 (p - 1) = 1) && decide (powMod p 31 c.1 ((p - 1) / 2) ≠ 1) &&
    c.2.2.all fun r => decide (3 ≤ r) && decide (r % 2 = 1) && trial r 513 3 && decide (powMod p 31 c.1 ((p - 1) / r) ≠ 1)

theorem lucas_prime (p : ℕ) (c : Cert) (h : lucas p c = true) : p.Prime := by
  unfold lucas at h
  simp only [Bool.and_eq_true, decide_eq_true_eq, List.all_eq_true] at h
  obtain ⟨⟨⟨⟨⟨h2, h31⟩, hfac⟩, h1⟩, hh⟩, hr⟩ := h
  have hlt : ∀ e, e ≤ p - 1 → e < 2 ^ 31 := by intro e he; norm_num; omega
  have ne1 : ∀ e, e ≤ p - 1 → powMod p 31 c.1 e ≠ 1 → (c.1 : ZMod p) ^ e ≠ 1 := by
    intro e he hne heq
    rw [← powMod_cast p 31 c.1 e (hlt e he), show (1 : ZMod p) = ((1 : ℕ) : ZMod p) by norm_cast, ZMod.natCast_eq_natCast_iff', Nat.mod_eq_of_lt (powMod_lt p (by omega) _ _ _),
      Nat.mod_eq_of_lt (by omega)] at heq
    exact hne heq
  apply lucas_primality p (c.1 : ZMod p)
  · rw [← powMod_cast p 31 c.1 _ (hlt _ le_rfl), h1, Nat.cast_one]
  · intro q hq hd
    rw [hfac] at hd
    rcases hq.dvd_mul.1 hd with h | h
    · have : q = 2 := (Nat.prime_dvd_prime_iff_eq hq Nat.prime_two).1 (hq.dvd_of_dvd_pow h)
      subst this
      exact ne1 _ (Nat.div_le_self _ _) hh
    · obtain ⟨r, hrm, hqr⟩ := (hq.prime.dvd_prod_iff).1 h
      obtain ⟨⟨⟨r3, ro⟩, rt⟩, rne⟩ := hr r hrm
      have hp := trial_prime r r3 ro rt
      have : q = r := (Nat.prime_dvd_prime_iff_eq hq hp).1 hqr
      subst this
      exact ne1 _ (Nat.div_le_self _ _) rne

/-! ## Certificates -/

/-- Certificates for entries 0-31. -/
def certs_0 : List Cert := [(3, 11, [1048571]), (11, 12, [3, 5, 7, 4993]), (5, 11, [61, 17189]), (5, 13, [3, 23, 29, 131]), (11, 11, [3, 5, 13, 19, 283]), (5, 17, [3, 43, 127]), (10, 11, [3, 3, 7, 11, 17, 89]), (3, 11, [5, 209701]), (14, 11, [3, 3, 3, 38833]), (7, 11, [3, 5, 69899]), (3, 13, [262121]), (3, 11, [71, 14767]), (17, 11, [3, 3, 5, 23, 1013]), (22, 12, [3, 3, 7, 53, 157]), (7, 14, [3, 5, 8737]), (3, 13, [262109]), (3, 11, [251, 4177]), (5, 11, [3, 31, 11273]), (7, 13, [3, 5, 101, 173]), (11, 14, [7, 97, 193]), (7, 11, [3, 3, 5, 23297]), (3, 11, [1048361]), (5, 11, [3, 13, 26881]), (3, 12, [7, 103, 727]), (3, 12, [11, 17, 2803]), (19, 19, [3, 3, 5, 7, 13]), (3, 12, [5, 104831]), (7, 11, [5, 209659]), (5, 13, [3, 3, 37, 787]), (3, 11, [331, 3167]), (3, 11, [5, 31, 6763]), (3, 11, [167, 6277])]

/-- Certificates for entries 32-63. -/
def certs_1 : List Cert := [(7, 11, [3, 79, 4423]), (7, 12, [3, 3, 5, 19, 613]), (11, 11, [3, 3, 3, 3, 12941]), (13, 11, [3, 5, 7, 67, 149]), (5, 13, [3, 3, 11, 2647]), (3, 11, [19, 43, 1283]), (11, 14, [3, 5, 5, 1747]), (7, 11, [3, 349397]), (3, 13, [31, 79, 107]), (3, 11, [17, 61657]), (5, 11, [3, 3, 3, 38821]), (3, 12, [7, 74869]), (7, 12, [3, 11, 15881]), (17, 11, [3, 3, 7, 127, 131]), (5, 11, [3, 349373]), (3, 13, [5, 5, 47, 223]), (5, 13, [3, 167, 523]), (3, 11, [11, 151, 631]), (3, 13, [59, 4441]), (3, 12, [5, 311, 337]), (3, 11, [17, 61651]), (7, 11, [3, 5, 107, 653]), (5, 12, [3, 37, 4721]), (19, 14, [3, 43669]), (11, 12, [3, 3, 5, 5, 17, 137]), (3, 11, [1048049]), (3, 11, [211, 4967]), (5, 11, [3, 349343]), (3, 11, [5, 5, 11, 37, 103]), (3, 15, [17, 3853]), (3, 13, [127, 2063]), (6, 11, [5, 13, 23, 701])]

/-- Certificates for entries 64-95. -/
def certs_2 : List Cert := [(11, 12, [3, 5, 181, 193]), (11, 11, [3, 3, 3, 37, 1049]), (5, 11, [3, 163, 2143]), (17, 11, [3, 7, 139, 359]), (3, 12, [7, 7, 17, 17, 37]), (29, 13, [3, 5, 5, 7, 499]), (10, 11, [3, 3, 3, 3, 17, 761]), (3, 14, [130987]), (3, 12, [5, 104789]), (3, 11, [1047881]), (6, 11, [5, 5, 5, 83, 101]), (3, 17, [7, 2339]), (7, 11, [3, 3, 173, 673]), (3, 11, [5, 209569]), (7, 16, [3, 5, 37, 59]), (5, 12, [3, 3, 23, 2531]), (3, 12, [523903]), (3, 11, [307, 3413]), (7, 11, [3, 3, 3, 151, 257]), (15, 12, [3, 7, 13, 19, 101]), (6, 12, [5, 29, 3613]), (5, 12, [3, 3, 3, 19403]), (5, 11, [3, 71, 4919]), (5, 13, [3, 7, 12473]), (7, 12, [3, 3, 58207]), (3, 11, [23, 45553]), (7, 11, [3, 5, 69847]), (3, 11, [1047701]), (10, 11, [3, 3, 116411]), (3, 13, [37, 7079]), (3, 11, [1047671]), (5, 12, [3, 3, 3, 3, 29, 223])]

/-- Certificates for entries 96-127. -/
def certs_3 : List Cert := [(3, 12, [5, 5, 23, 911]), (6, 13, [5, 7, 7, 1069]), (6, 11, [5, 13, 71, 227]), (11, 11, [3, 3, 17, 41, 167]), (3, 11, [23, 37, 1231]), (3, 12, [523777]), (3, 11, [5, 53, 59, 67]), (11, 13, [3, 5, 13, 17, 79]), (3, 11, [1047539]), (5, 11, [3, 3, 239, 487]), (17, 11, [3, 349177]), (10, 12, [3, 7, 7, 7, 509]), (5, 11, [3, 3, 3, 11, 3527]), (7, 13, [3, 87293]), (43, 12, [3, 3, 5, 103, 113]), (31, 11, [3, 3, 7, 13, 1279]), (5, 11, [3, 73, 4783]), (3, 12, [5, 19, 37, 149]), (3, 11, [5, 17, 12323]), (3, 13, [7, 37409]), (3, 11, [13, 197, 409]), (5, 12, [3, 3, 58189]), (3, 12, [23, 22769]), (3, 11, [13, 80567]), (3, 11, [5, 11, 137, 139]), (3, 15, [67, 977]), (14, 14, [3, 17, 17, 151]), (5, 13, [11, 13, 1831]), (5, 15, [3, 3, 7, 1039]), (10, 11, [3, 59, 61, 97]), (3, 11, [5, 7, 23, 1301]), (5, 11, [3, 349099])]

/-- Certificates for entries 128-159. -/
def certs_4 : List Cert := [(10, 11, [3, 349093]), (3, 11, [101, 10369]), (5, 16, [3, 10909]), (26, 11, [3, 5, 11, 11, 577]), (7, 12, [3, 347, 503]), (3, 11, [5, 209449]), (17, 11, [3, 3, 116359]), (3, 12, [5, 104723]), (3, 11, [5, 13, 16111]), (13, 11, [3, 103, 3389]), (3, 11, [5, 209431]), (3, 12, [523573]), (5, 14, [3, 7, 23, 271]), (5, 11, [7, 13, 37, 311]), (3, 11, [1047131]), (6, 11, [5, 5, 5, 8377]), (3, 17, [16361]), (5, 11, [3, 41, 8513]), (29, 11, [3, 7, 7, 17, 419]), (7, 11, [3, 5, 5, 23, 607]), (3, 15, [31, 2111]), (11, 11, [3, 5, 29, 29, 83]), (10, 11, [3, 7, 73, 683]), (7, 13, [3, 87253]), (3, 11, [5, 11, 19037]), (3, 12, [37, 14149]), (3, 13, [5, 13, 4027]), (3, 11, [41, 25537]), (5, 12, [3, 13, 31, 433]), (7, 11, [3, 11, 31727]), (3, 12, [137, 3821]), (3, 11, [1046951])]

/-- Certificates for entries 160-191. -/
def certs_5 : List Cert := [(3, 12, [13, 67, 601]), (5, 12, [3, 3, 7, 7, 1187]), (7, 12, [3, 5, 34897]), (5, 11, [3, 3, 89, 1307]), (11, 11, [3, 3, 293, 397]), (11, 16, [3, 3, 5, 727]), (3, 13, [261713]), (3, 12, [647, 809]), (11, 11, [3, 3, 5, 43, 541]), (13, 12, [3, 3, 11, 17, 311]), (3, 12, [7, 23, 3251]), (3, 11, [863, 1213]), (3, 13, [11, 37, 643]), (3, 11, [5, 209359]), (3, 11, [7, 229, 653]), (3, 13, [167, 1567]), (3, 11, [5, 209347]), (10, 13, [3, 7, 17, 733]), (3, 12, [523357]), (10, 14, [3, 43613]), (3, 12, [523351]), (7, 13, [3, 3, 5, 5, 1163]), (5, 11, [3, 29, 53, 227]), (6, 12, [5, 17, 47, 131]), (5, 11, [3, 269, 1297]), (5, 14, [3, 3, 14537]), (17, 11, [3, 7, 11, 23, 197]), (3, 11, [1046657]), (3, 11, [349, 2999]), (17, 12, [3, 3, 58147]), (3, 12, [677, 773]), (11, 12, [3, 19, 9181])]

/-- Certificates for entries 192-223. -/
def certs_6 : List Cert := [(11, 11, [3, 5, 5, 5, 2791]), (7, 14, [3, 43609]), (21, 11, [3, 5, 11, 6343]), (5, 12, [3, 3, 3, 19381]), (7, 11, [3, 17, 20521]), (3, 13, [261641]), (13, 12, [3, 7, 24917]), (3, 11, [7, 11, 13591]), (3, 11, [191, 5479]), (6, 12, [7, 17, 4397]), (3, 11, [5, 7, 29, 1031]), (3, 12, [5, 5, 20929]), (3, 11, [1046447]), (11, 13, [3, 29, 31, 97]), (3, 16, [53, 617]), (5, 11, [3, 149, 2341]), (3, 11, [317, 3301]), (7, 13, [3, 3, 3, 9689]), (3, 11, [1046399]), (3, 12, [5, 104639]), (11, 11, [3, 3, 3, 5, 23, 337]), (3, 11, [5, 5, 5, 11, 761]), (7, 12, [3, 5, 13, 2683]), (13, 12, [3, 7, 7, 3559]), (5, 12, [3, 174389]), (37, 11, [3, 3, 3, 11, 13, 271]), (3, 13, [261581]), (7, 11, [3, 43, 8111]), (11, 16, [3, 3, 3, 7, 173]), (3, 11, [29, 109, 331]), (3, 12, [17, 30773]), (3, 11, [13, 13, 41, 151])]

/-- Certificates for entries 224-255. -/
def certs_7 : List Cert := [(3, 13, [261563]), (5, 13, [3, 87187]), (11, 13, [3, 5, 7, 47, 53]), (3, 12, [5, 11, 9511]), (3, 12, [691, 757]), (3, 11, [19, 55061]), (13, 11, [3, 7, 31, 1607]), (3, 13, [41, 6379]), (3, 18, [11, 743]), (5, 12, [3, 3, 3, 19373]), (3, 12, [19, 27529]), (14, 13, [3, 179, 487]), (11, 12, [3, 3, 5, 59, 197]), (3, 13, [5, 193, 271]), (5, 13, [3, 3, 7, 7, 593]), (11, 14, [3, 5, 23, 379]), (5, 11, [3, 431, 809]), (5, 12, [3, 3, 3, 3, 11, 587]), (3, 11, [17, 37, 1663]), (3, 15, [5, 5, 5, 523]), (3, 11, [11, 95089]), (3, 12, [11, 47543]), (7, 11, [3, 13, 13, 2063]), (3, 11, [67, 67, 233]), (13, 11, [3, 3, 5, 11, 2113]), (14, 16, [3, 5, 2179]), (11, 11, [3, 348637]), (3, 15, [131, 499]), (3, 12, [522943]), (3, 11, [73, 14327]), (7, 12, [3, 174311]), (3, 11, [5, 209173])]

/-- Certificates for entries 256-287. -/
def certs_8 : List Cert := [(13, 11, [3, 348617]), (14, 11, [3, 3, 3, 5, 61, 127]), (3, 11, [1045829]), (3, 11, [19, 19, 2897]), (3, 11, [13, 80447]), (7, 12, [3, 174299]), (3, 11, [23, 41, 1109]), (3, 11, [11, 95071]), (7, 15, [3, 21787]), (6, 11, [5, 199, 1051]), (3, 11, [1045739]), (5, 11, [3, 3, 3, 7, 11, 503]), (3, 12, [5, 7, 14939]), (3, 11, [139, 7523]), (13, 11, [3, 5, 7, 23, 433]), (3, 11, [1045691]), (7, 11, [3, 348559]), (5, 12, [3, 61, 2857]), (3, 13, [73, 3581]), (3, 12, [7, 19, 3931]), (3, 12, [83, 6299]), (3, 12, [353, 1481]), (10, 11, [3, 7, 49789]), (6, 11, [5, 79, 2647]), (3, 12, [5, 5, 11, 1901]), (3, 11, [7, 41, 3643]), (3, 11, [5, 67, 3121]), (3, 11, [1045529]), (11, 11, [3, 5, 47, 1483]), (3, 12, [522757]), (7, 11, [3, 37, 9419]), (3, 14, [130687])]

/-- Certificates for entries 288-319. -/
def certs_9 : List Cert := [(17, 11, [3, 563, 619]), (7, 12, [3, 174241]), (3, 13, [7, 37337]), (3, 12, [5, 104543]), (3, 15, [223, 293]), (7, 14, [3, 43, 1013]), (17, 12, [3, 5, 34847]), (3, 11, [1045409]), (5, 11, [3, 11, 79, 401]), (3, 12, [13, 31, 1297]), (5, 12, [3, 11, 47, 337]), (6, 12, [5, 104537]), (3, 11, [5, 209071]), (3, 11, [7, 149333]), (3, 11, [1045307]), (31, 15, [3, 3, 7, 17, 61]), (11, 11, [5, 41, 5099]), (3, 12, [17, 71, 433]), (3, 14, [130657]), (3, 11, [1045241]), (5, 13, [3, 7, 23, 541]), (3, 11, [5, 7, 29863]), (38, 15, [3, 5, 5, 13, 67]), (3, 11, [1045199]), (15, 12, [3, 17, 10247]), (3, 12, [5, 19, 5501]), (13, 11, [3, 5, 69677]), (3, 11, [1045151]), (3, 12, [5, 104513]), (3, 11, [89, 11743]), (3, 13, [261281]), (3, 11, [13, 17, 4729])]

/-- Certificates for entries 320-351. -/
def certs_10 : List Cert := [(14, 11, [3, 348367]), (43, 11, [3, 5, 19, 19, 193]), (15, 13, [3, 17, 47, 109]), (11, 14, [3, 3, 5, 2903]), (3, 11, [7, 149297]), (3, 13, [19, 13751]), (7, 11, [3, 348353]), (15, 13, [3, 3, 7, 11, 13, 29]), (3, 12, [522517]), (3, 11, [13, 80387]), (7, 13, [3, 5, 17417]), (3, 11, [53, 19717]), (3, 11, [5, 7, 73, 409]), (3, 11, [11, 94999]), (3, 13, [5, 52249]), (11, 12, [3, 13, 13397]), (3, 11, [23, 45433]), (29, 11, [3, 3, 5, 11, 2111]), (5, 12, [3, 174157]), (3, 12, [41, 12743]), (17, 11, [3, 5, 41, 1699]), (11, 13, [3, 7, 7, 1777]), (3, 11, [11, 43, 47, 47]), (3, 11, [5, 101, 2069]), (5, 11, [3, 3, 17, 6829]), (3, 13, [13, 71, 283]), (10, 11, [3, 3, 3, 3, 12899]), (7, 15, [3, 21767]), (7, 12, [3, 3, 5, 13, 19, 47]), (3, 11, [1044809]), (5, 11, [3, 348253]), (5, 11, [3, 3, 11, 61, 173])]

/-- Certificates for entries 352-383. -/
def certs_11 : List Cert := [(5, 14, [3, 101, 431]), (7, 12, [3, 174121]), (10, 12, [3, 11, 11, 1439]), (7, 11, [3, 3, 3, 38693]), (7, 12, [3, 3, 127, 457]), (23, 14, [3, 19, 29, 79]), (17, 12, [3, 3, 7, 8291]), (3, 15, [109, 599]), (19, 11, [3, 5, 7, 9949]), (3, 11, [13, 107, 751]), (3, 14, [130579]), (5, 11, [3, 348209]), (11, 11, [3, 3, 37, 3137]), (6, 12, [23, 22709]), (3, 11, [5, 401, 521]), (5, 11, [3, 67, 5197]), (3, 13, [7, 37307]), (14, 11, [3, 3, 5, 139, 167]), (23, 12, [3, 7, 7, 11, 17, 19]), (3, 11, [617, 1693]), (3, 13, [113, 2311]), (11, 11, [3, 5, 83, 839]), (3, 11, [29, 181, 199]), (3, 12, [101, 5171]), (3, 11, [233, 4483]), (5, 11, [3, 397, 877]), (5, 14, [3, 3, 89, 163]), (3, 11, [7, 149213]), (7, 11, [3, 53, 6569]), (3, 15, [29, 2251]), (11, 14, [3, 7, 6217]), (7, 12, [3, 3, 5, 5, 11, 211])]

/-- Certificates for entries 384-415. -/
def certs_12 : List Cert := [(3, 11, [1044437]), (3, 12, [5, 71, 1471]), (3, 11, [7, 13, 23, 499]), (3, 11, [5, 11, 17, 1117]), (14, 12, [3, 5, 31, 1123]), (5, 11, [3, 3, 3, 47, 823]), (3, 12, [7, 7, 10657]), (3, 14, [7, 17, 1097]), (3, 11, [43, 149, 163]), (19, 12, [3, 5, 7, 4973]), (11, 13, [3, 3, 29009]), (3, 16, [5, 61, 107]), (33, 11, [3, 3, 5, 23, 1009]), (3, 11, [41, 25471]), (17, 11, [3, 7, 223, 223]), (7, 12, [3, 3, 3, 83, 233]), (13, 11, [3, 5, 11, 6329]), (10, 11, [3, 7, 49727]), (3, 13, [5, 7, 7459]), (3, 12, [522127]), (3, 12, [17, 30713]), (5, 12, [3, 3, 58013]), (11, 11, [3, 3, 3, 5, 5, 7, 13, 17]), (6, 11, [5, 208843]), (3, 13, [13, 43, 467]), (3, 12, [53, 9851]), (7, 11, [3, 131, 2657]), (6, 11, [5, 208837]), (3, 12, [5, 104417]), (3, 11, [5, 7, 29833]), (11, 11, [3, 7, 7, 7103]), (3, 13, [5, 17, 37, 83])]

/-- Certificates for entries 416-447. -/
def certs_13 : List Cert := [(5, 11, [3, 348043]), (5, 11, [3, 3, 3, 38671]), (3, 12, [5, 263, 397]), (5, 12, [3, 174017]), (10, 11, [3, 11, 29, 1091]), (7, 13, [3, 5, 17401]), (3, 12, [5, 5, 7, 19, 157]), (3, 13, [261011]), (5, 11, [3, 23, 15131]), (3, 11, [5, 208807]), (7, 12, [3, 5, 13, 2677]), (3, 13, [260999]), (5, 12, [3, 7, 7, 53, 67]), (5, 11, [7, 17, 31, 283]), (6, 11, [5, 5, 41759]), (5, 11, [3, 347989]), (3, 12, [7, 11, 6779]), (11, 11, [3, 347987]), (3, 11, [1043951]), (3, 12, [29, 41, 439]), (6, 11, [83, 12577]), (5, 12, [3, 3, 3, 13, 1487]), (3, 14, [130483]), (17, 15, [3, 3, 11, 659]), (7, 13, [3, 37, 2351]), (7, 11, [3, 19, 18313]), (5, 14, [3, 23, 31, 61]), (17, 12, [3, 7, 29, 857]), (11, 11, [3, 3, 115979]), (3, 11, [11, 31, 3061]), (3, 12, [23, 22691]), (14, 15, [3, 5, 4349])]

/-- Certificates for entries 448-479. -/
def certs_14 : List Cert := [(3, 11, [1043759]), (3, 11, [479, 2179]), (3, 14, [5, 97, 269]), (6, 12, [7, 74551]), (5, 11, [3, 173, 2011]), (5, 11, [3, 347899]), (3, 14, [7, 18637]), (14, 14, [3, 3, 5, 13, 223]), (7, 12, [3, 281, 619]), (19, 12, [3, 5, 43, 809]), (3, 11, [7, 149087]), (3, 12, [521791]), (3, 14, [130447]), (3, 12, [7, 131, 569]), (17, 11, [3, 3, 47, 2467]), (7, 11, [3, 5, 73, 953]), (5, 11, [3, 137, 2539]), (23, 12, [3, 11, 97, 163]), (3, 11, [5, 5, 7, 67, 89]), (3, 12, [31, 16831]), (5, 11, [3, 53, 6563]), (7, 12, [3, 3, 57973]), (13, 11, [3, 7, 17, 37, 79]), (5, 11, [29, 35983]), (14, 11, [3, 3, 5, 23189]), (3, 11, [1043501]), (11, 11, [3, 19, 18307]), (5, 13, [3, 13, 6689]), (5, 15, [3, 21739]), (7, 11, [3, 3, 269, 431]), (5, 12, [3, 3, 3, 3, 3, 19, 113]), (13, 13, [5, 7, 29, 257])]

/-- Certificates for entries 480-511. -/
def certs_15 : List Cert := [(19, 12, [3, 3, 7, 7, 7, 13, 13]), (3, 11, [5, 11, 61, 311]), (3, 12, [401, 1301]), (3, 14, [130423]), (5, 13, [3, 7, 12421]), (3, 12, [521671]), (11, 11, [3, 457, 761]), (5, 13, [17, 67, 229]), (3, 11, [263, 3967]), (13, 12, [3, 5, 83, 419]), (13, 12, [3, 41, 4241]), (11, 11, [3, 5, 157, 443]), (10, 13, [3, 3, 28979]), (3, 14, [5, 11, 2371]), (3, 11, [13, 13, 6173]), (11, 12, [3, 3, 3, 19319]), (5, 11, [3, 3, 7, 29, 571]), (5, 12, [3, 173867]), (7, 11, [3, 3, 3, 3, 3, 3, 3, 3, 3, 53]), (3, 14, [130399]), (23, 11, [3, 5, 5, 7, 1987]), (3, 12, [11, 47417]), (3, 12, [5, 5, 31, 673]), (3, 13, [71, 3673]), (6, 12, [7, 74509]), (3, 12, [521557]), (19, 12, [5, 104309]), (3, 11, [593, 1759]), (3, 11, [13, 19, 41, 103]), (17, 13, [3, 86923]), (11, 12, [3, 5, 7, 4967]), (19, 11, [3, 3, 5, 13, 1783])]

/-- Certificates for entries 512-520. -/
def certs_16 : List Cert := [(7, 12, [3, 3, 57947]), (3, 11, [61, 17099]), (5, 12, [3, 173839]), (19, 14, [3, 13, 3343]), (6, 11, [5, 337, 619]), (3, 12, [521503]), (5, 11, [3, 67, 5189]), (3, 11, [17, 19, 3229]), (5, 11, [3, 3, 115883])]

def certs : List Cert := certs_0 ++ certs_1 ++ certs_2 ++ certs_3 ++ certs_4 ++ certs_5 ++ certs_6 ++ certs_7 ++ certs_8 ++ certs_9 ++ certs_10 ++ certs_11 ++ certs_12 ++ certs_13 ++ certs_14 ++ certs_15 ++ certs_16

/-- One entry of the table, with the product `q` of the primes before it and the prime `b` before it. -/
def entryOk (q b : ℕ) (t : ℕ × ℕ × ℕ) (c : Cert) : Bool :=
  lucas t.1 c && decide (1073741824 < t.1) && decide (t.1 < b) && decide (t.1 % 2048 = 1) && decide (t.2.1 < t.1) && decide (powMod t.1 31 t.2.1 1024 = t.1 - 1) &&
    decide (t.2.2 < t.1) && decide (t.2.2 * (q % t.1) % t.1 = 2147483648 % t.1)

/-- All entries. -/
def tableOk : ℕ → ℕ → List (ℕ × ℕ × ℕ) → List Cert → Bool
  | _, _, [], [] => true
  | q, b, t :: ts, c :: cs => entryOk q b t c && tableOk (q * t.1) t.1 ts cs
  | _, _, _, _ => false

theorem table_ok : tableOk 1 2147483648 primes certs = true := by decide +kernel

/-- What an entry `(p, g, s)` promises: a prime of 31 bits, 1 modulo 2048, below `b`; a root of `x^1024 + 1`; the inverse of `q` in Montgomery form. -/
structure EntryOk (q b : ℕ) (p g s : ℕ) : Prop where
  prime : p.Prime
  lo : 1073741824 < p
  hi : p < b
  one : p % 2048 = 1
  glt : g < p
  root : (g : ZMod p) ^ 1024 = -1
  slt : s < p
  inv : (s : ZMod p) * q = 2147483648

theorem entry_sound (q b : ℕ) (t : ℕ × ℕ × ℕ) (c : Cert) (h : entryOk q b t c = true) : EntryOk q b t.1 t.2.1 t.2.2 := by
  unfold entryOk at h
  simp only [Bool.and_eq_true, decide_eq_true_eq] at h
  obtain ⟨⟨⟨⟨⟨⟨⟨h1, h2⟩, h3⟩, h4⟩, h5⟩, h6⟩, h7⟩, h8⟩ := h
  refine ⟨lucas_prime _ _ h1, h2, h3, h4, h5, ?_, h7, ?_⟩
  · rw [← powMod_cast t.1 31 t.2.1 1024 (by norm_num), h6, Nat.cast_sub (by omega), Nat.cast_one, CharP.cast_eq_zero (ZMod t.1) t.1, zero_sub]
  · have e : ((t.2.2 * (q % t.1) : ℕ) : ZMod t.1) = ((2147483648 : ℕ) : ZMod t.1) := by
      rw [ZMod.natCast_eq_natCast_iff']; exact h8
    rw [Nat.cast_mul, ZMod.natCast_mod] at e
    rw [e]; norm_cast

/-- The primes of the table. -/
def primeList : List ℕ := primes.map (·.1)

theorem table_sound : ∀ (ts : List (ℕ × ℕ × ℕ)) (cs : List Cert) (q b : ℕ), tableOk q b ts cs = true → ∀ i, (hi : i < ts.length) →
    EntryOk (q * ((ts.take i).map (·.1)).prod) (if _h : i = 0 then b else (ts[i - 1]'(by omega)).1) ts[i].1 ts[i].2.1 ts[i].2.2 := by
  intro ts
  induction ts with
  | nil => intro cs q b _ i hi; exact absurd hi (by simp)
  | cons t ts ih =>
    intro cs q b h i hi
    cases cs with
    | nil => cases h
    | cons c cs =>
      unfold tableOk at h
      rw [Bool.and_eq_true] at h
      cases i with
      | zero => simpa using entry_sound q b t c h.1
      | succ i =>
        have := ih cs (q * t.1) t.1 h.2 i (by simpa using hi)
        rw [List.take_succ_cons, List.map_cons, List.prod_cons, ← mul_assoc, dif_neg (by omega)]
        cases i with
        | zero => simpa using this
        | succ i => simpa using this

theorem primes_length : primes.length = 521 := by decide +kernel

/-- **C91** (the table of small primes): each of the 521 entries holds a prime `p` between `2^30` and `2^31`, 1 modulo 2048, smaller than the one before; a `g` with `g^1024 = -1`; and the inverse
of the product of the primes before it, in Montgomery form. -/
theorem C91_primes (i : ℕ) (hi : i < 521) :
    EntryOk (primeList.take i).prod (if i = 0 then 2147483648 else primeList[i - 1]!) primeList[i]! (primes[i]!).2.1 (primes[i]!).2.2 := by
  have hl : i < primes.length := by rw [primes_length]; exact hi
  have h := table_sound primes certs 1 2147483648 table_ok i hl
  rw [one_mul] at h
  have e1 : primeList[i]! = primes[i].1 := by
    unfold primeList; rw [getElem!_pos _ i (by simpa using hl), List.getElem_map]
  rw [e1, getElem!_pos primes i hl]
  unfold primeList
  rw [← List.map_take]
  split
  · next h0 => rw [dif_pos h0] at h; exact h
  · next h0 =>
    rw [dif_neg h0] at h
    rw [getElem!_pos _ (i - 1) (by simp; omega), List.getElem_map]
    exact h

theorem prime_lt (i : ℕ) (hi : i < 521) : primeList[i]! < 2147483648 := by
  induction i with
  | zero => have := (C91_primes 0 hi).hi; simpa using this
  | succ i ih =>
    have h := (C91_primes (i + 1) hi).hi
    rw [if_neg (by omega)] at h
    have := ih (by omega)
    rw [Nat.add_sub_cancel] at h; omega

/-- Every prime of the table, with `modp_ninv31`, is a modulus for the arithmetic above. -/
theorem modulus_table (i : ℕ) (hi : i < 521) : Modulus primeList[i]! (modpNinv31 primeList[i]!) := by
  have h := C91_primes i hi
  have hlt := prime_lt i hi
  refine ⟨h.prime, h.lo, hlt, (ninv31_eq _ hlt ?_).2⟩
  have := h.one
  omega

theorem p0_eq : p0 = primeList[0]! := by decide +kernel
theorem g0_eq : g0 = (primes[0]!).2.1 := rfl

theorem modulus_p0 : Modulus p0 (modpNinv31 p0) := by rw [p0_eq]; exact modulus_table 0 (by norm_num)
theorem root_p0 : Root p0 g0 := by
  have h := C91_primes 0 (by norm_num)
  rw [← p0_eq] at h
  exact ⟨h.glt, h.root⟩

end Verif.CRef.Kg
