import Verif.Float.Model
import Verif.FFT.Sampling

/-! # Specification of the Python signer in floating point -/

namespace Verif.PyFloat

/-- What is assumed about the rounding of one operation: relative error at most `2^-53` (round to nearest), up to `2^-200` near zero, for numbers up to `2^200`.  Binary64 has `2^-1074` and `2^1023`. -/
structure Rounds (fl : ℝ → ℝ) : Prop where
  close : ∀ x, |x| ≤ 2 ^ 200 → |fl x - x| ≤ |x| / 2 ^ 53 + 1 / 2 ^ 200

/-- The sampler `S` with a record of every integer it has returned, in order. -/
def logged {St : Type} (S : Sampler St) : Sampler (St × List ℤ) := fun st c s =>
  match S st.1 c s with
  | .error e => .error e
  | .ok r => .ok (r.1, (r.2, st.2 ++ [r.1]))

/-- The two integer polynomials of degree below `2^k` that `2^(k+1)` drawn integers stand for: the first half of the draws gives the second polynomial, and in each of them the even coefficients come
from the second-level polynomial drawn last. -/
def arrange : ℕ → List ℤ → List ℤ × List ℤ
  | 0, l => ([l.getD 0 0], [l.getD 1 0])
  | k + 1, l =>
    let r := arrange k (l.take (2 ^ (k + 1)))
    let u := arrange k (l.drop (2 ^ (k + 1)))
    (FFT.interleaveZ u.1 u.2, FFT.interleaveZ r.1 r.2)

end Verif.PyFloat
