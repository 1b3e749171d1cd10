import Verif.CRef.SignDynProps
import Verif.CRef.ApiKeys

/-! # C106: from key pair to opened message, with the modelled signer -/

namespace Verif.CRef.SignDyn

open Verif Verif.CRef Verif.Ring Verif.Falcon

/-- `sign_dyn` as the signer of `signWith`: with the given fuels, and the empty signature if they do not suffice. -/
def signer (sfuel fuel : ℕ) (buf : ℕ → Bytes) : SignDyn := fun rng f g F G c => ((signDyn sfuel buf f g F G c 9 fuel 0 rng).map Prod.fst).getD []

/-- **C106** (key pair, signature, opening).  A key pair in the 16-bit format, a message signed with `sign_dyn`: if the attempts stay in range and one of them succeeds, the signed message is produced, and it
opens under the public key exactly when no coefficient of the signature exceeds 2046 (finding of C87). -/
theorem C106_chain16 (eth : Bool) (sfuel fuel : ℕ) (buf : ℕ → Bytes) (nonce seed m sk pk : Bytes) (h : List ℕ) (f g F G : List ℤ) (c : List ℕ) (s : List ℤ) (rng' : Shake.Ctx)
    (hf : f.length = 512) (hg : g.length = 512) (hF : F.length = 512) (hG : G.length = 512) (hh : Poly 512 h) (hkp : keypair16 f g F h = some (pk, sk)) (hk : KeyOf 512 f g F G h)
    (hGb : ∀ x ∈ G, -127 ≤ x ∧ x ≤ 127) (hn : nonce.length = 40) (hb : IsBytes nonce) (hm : IsBytes m) (hlen : eth = true → 40 + m.length ≤ 4096) (hc : Hashes eth (nonce ++ m) c)
    (fit : ∀ i < fuel, Fits (zSampler 9 sfuel) f g F G c 9 (attempt buf 0 (Shake.flip (Shake.inject Shake.init seed)) i).1)
    (run : signDyn sfuel buf f g F G c 9 fuel 0 (Shake.flip (Shake.inject Shake.init seed)) = some (s, rng')) :
    ∃ sm, (∃ fuel', signWith encSig16 eth fuel' (signer sfuel fuel buf) nonce seed m sk = .done sm) ∧ ((∃ fuel', signOpen16 eth fuel' sm pk = .done m) ↔ ∀ x ∈ s, x ≤ 2046) := by
  obtain ⟨b1, b2, b3⟩ := (C87_keypair16 f g F h hf hg hF hh).1.1 ⟨pk, sk, hkp⟩
  have v : ∀ l : List ℤ, l.length = 512 → (∀ x ∈ l, -127 ≤ x ∧ x ≤ 127) → Vec8 (2 ^ 9) l := fun l h1 h2 => ⟨h1, fun x hx => by have := h2 x hx; omega⟩
  have vf := v f hf fun x hx => by have := b1 x hx; omega
  have vg := v g hg fun x hx => by have := b2 x hx; omega
  obtain ⟨a1, a2⟩ := C106_sign_dyn sfuel buf 9 fuel (by norm_num) (by norm_num) f g F G vf vg (v F hF b3) (v G hG hGb) h c hk (hashes_poly hc).1 _ rng' s fit run
  have e : signer sfuel fuel buf (Shake.flip (Shake.inject Shake.init seed)) f g F G c = s := by unfold signer; rw [run]; rfl
  have := C87_chain16 eth (signer sfuel fuel buf) nonce seed m sk pk h f g F G c hf hg hF hG hh hkp hk.2.1 hGb hk.2.2.2 hn hb hm hlen hc (by rw [e]; exact a1) (by rw [e]; exact a2)
  rw [e] at this
  exact this

end Verif.CRef.SignDyn
