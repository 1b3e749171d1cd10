import Verif.Bits

/-! # Specification of the 16-bit format, independent of the model -/

namespace Verif.CRef.CodecSpec
open Verif

/-- The words as big-endian pairs of bytes. -/
def be16 (ws : List Nat) : Bytes := ws.flatMap fun w => [w / 256, w % 256]

/-- How a 16-bit word is read as a signature coefficient: below 2047 itself, below 12289 the negative representative, from 32768 on the two's complement value. -/
def value16 (w : Nat) : Int := if w < 2047 then w else if w < 12289 then (w : Int) - 12289 else (w : Int) - 65536

end Verif.CRef.CodecSpec
