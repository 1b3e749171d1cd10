import Verif.CRef.HashCtProps
import Verif.CRef.ApiExamples

/-! # Concrete cases for C89 -/

namespace Verif.CRef
open Verif Verif.Hash

/-- The nonce and the message of the examples have 512 accepted words among the 717 that are read: the constant-time function gives the point of the variable-time one. -/
example : hashToPointCt (shakeFlipped [nonce5, [6]]) 9 = hmShake := by
  have hb : ∀ p ∈ [nonce5, [6]], IsBytes p := by
    intro p hp
    simp only [List.mem_cons, List.not_mem_nil, or_false] at hp
    rcases hp with rfl | rfl
    · exact nonce5_bytes
    · exact six_bytes
  have hw : ctWords 9 = 717 := by decide
  have ha : accepted (shakeByte [nonce5, [6]].flatten) 541 = hmShake := accepted_shake
  have hc : 2 ^ 9 ≤ (accepted (shakeByte [nonce5, [6]].flatten) (ctWords 9)).length := by
    have := (accepted_prefix (shakeByte [nonce5, [6]].flatten) 541 717 (by norm_num)).length_le
    rw [ha, count_shake] at this
    rw [hw, e512]
    exact this
  refine ((C89_constant_time 9 (by norm_num) (by norm_num) _ hb).2.1 hc hmShake).1 ?_
  rw [C86_hash_to_point _ _ hb]
  exact ⟨541, ha, by rw [count_shake, e512]⟩

/-- With two accepted samples for four places the result shows the value 65535. -/
example : (ctLoop 3 7 9 1 [65535, 5, 65535, 65535, 7, 65535, 65535]).take 4 = [5, 7, 65535, 65535] := by decide +kernel

/-- Squeezing: four accepted samples among seven. -/
example : (ctLoop 3 7 9 1 [65535, 5, 65535, 9, 7, 65535, 8]).take 4 = [5, 9, 7, 8] := by decide +kernel

end Verif.CRef
