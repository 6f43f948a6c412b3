import Verif.Props.Streaming
import Verif.Proof.Sm3
/- C14: SM3 equals GB/T 32905. -/
namespace Hashes

/-- C14. `Sm3` over any chunking of any message equals the standard: the 16-word ring written by `w2` during the
rounds holds the standard's message expansion, and the unrolled register rotation is the standard's round. -/
theorem C14_sm3 (l : List Bytes) :
    Sm3.sm3.finish (Sm3.sm3.updates Sm3.sm3.new l) = Spec.Sm3.sm3 l.flatten := by
  rw [C01_digest_of_chunks Sm3.sm3 Sm3.lawful, Sm3.digest_eq]

/-- Concrete case: SM3("abc"). -/
example : Sm3.sm3.finish (Sm3.sm3.updates Sm3.sm3.new [[0x61, 0x62], [0x63]]) =
    [0x66, 0xc7, 0xf0, 0xf4, 0x62, 0xee, 0xed, 0xd9, 0xd1, 0xf2, 0xd4, 0x6b, 0xdc, 0x10, 0xe4, 0xe2,
     0x41, 0x67, 0xc4, 0x87, 0x5c, 0xf2, 0xf7, 0xa2, 0x29, 0x7d, 0xa0, 0x2b, 0x8f, 0x4b, 0xa8, 0xe0] := by
  decide +kernel

end Hashes
