import Verif.CRef.Spec
import Verif.CRef.CodecSpec
import Verif.CRef.KeccakSpec
import Verif.Hash.Lemmas
import Verif.Codec.Spec
import Verif.Encoding.Spec

/-! # Specification of the signed-message formats, independent of the model -/

namespace Verif.CRef

open Verif.Hash (IsPoint shakeByte streamByte)
open Verif.CRef.CodecSpec (be16 value16)

/-- The point of a byte string: from the Keccak-based generator, whose buffer takes at most 4096 bytes (what does not fit at once is dropped), or from SHAKE256. -/
def Hashes (eth : Bool) (data : Bytes) (hm : List Nat) : Prop :=
  if eth then IsPoint (streamByte Keccak256 (if data.length ≤ 4096 then data else [])) 512 hm else IsPoint (shakeByte data) 512 hm

/-- The words `comp_decode16` admits. -/
def Word16 (w : Nat) : Prop := w < 12289 ∨ (32768 ≤ w ∧ w < 65536)

/-- A public key in the 16-bit format: header and the 512 values of the polynomial at the evaluation points. -/
def IsKey16 (h : List Nat) (pk : Bytes) : Prop := ∃ t, NTT.Poly512 h ∧ NTT.IsTransform h t ∧ pk = 9 :: be16 t

/-- A public key in the NIST format: header and the 512 coefficients on 14 bits. -/
def IsKey14 (h : List Nat) (pk : Bytes) : Prop := ∃ y, NTT.Poly512 h ∧ Codec.Spec.IsPacking 14 h y ∧ pk = 9 :: y

/-- A signed message in the 16-bit format: length 1025, nonce, message, header, 512 words; the words are short and satisfy the verification equation for the hash of nonce and message. -/
def Signed16 (eth : Bool) (h : List Nat) (m sm : Bytes) : Prop :=
  ∃ nonce ws hm, nonce.length = 40 ∧ sm = [4, 1] ++ nonce ++ m ++ 0x29 :: be16 ws ∧ ws.length = 512 ∧ (∀ w ∈ ws, Word16 w) ∧
    Hashes eth (nonce ++ m) hm ∧ Accepts 512 34034726 h hm (ws.map value16)

/-- `e` is the compressed form of the vector `s`. -/
def IsCompressed (s : List Int) (e : Bytes) : Prop :=
  s.length = 512 ∧ (∀ c ∈ s, c.natAbs ≤ 2047) ∧ e.length = (Encoding.Spec.codeLength s + 7) / 8 ∧ Encoding.Spec.ZeroPadded e (Encoding.Spec.code s)

/-- A signed message in the NIST format. -/
def Signed14 (eth : Bool) (h : List Nat) (m sm : Bytes) : Prop :=
  ∃ nonce e s hm, nonce.length = 40 ∧ sm = [(e.length + 1) / 256, (e.length + 1) % 256] ++ nonce ++ m ++ 0x29 :: e ∧ IsCompressed s e ∧
    Hashes eth (nonce ++ m) hm ∧ Accepts 512 34034726 h hm s

end Verif.CRef
