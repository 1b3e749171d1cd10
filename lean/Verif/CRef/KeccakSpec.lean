import Verif.Bits
import Verif.Keccak.Spec

/-! # Specification: Keccak-256 -/

namespace Verif.CRef

/-- Keccak-256 (the hash of Ethereum): the sponge with Keccak-f[1600], rate 136, padding byte `0x01`, 32 bytes of output. -/
def Keccak256 (m : Bytes) : Bytes := Keccak.Spec.spongeOut Keccak.Spec.F 136 0x01 m 0 32

end Verif.CRef
