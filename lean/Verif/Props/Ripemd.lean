import Verif.Props.Streaming
import Verif.Proof.Ripemd
/- C13: the RIPEMD family equals its designers' definition. -/
namespace Hashes

/-- C13. `Ripemd160` over any chunking of any message. -/
theorem C13_ripemd160 (l : List Bytes) :
    Ripemd.ripemd160.finish (Ripemd.ripemd160.updates Ripemd.ripemd160.new l) = Spec.Ripemd.ripemd160 l.flatten := by
  rw [C01_digest_of_chunks Ripemd.ripemd160 Ripemd.lawful, Ripemd.ripemd160,
    Ripemd.digest_eq (M := Ripemd.C160.M) Ripemd.compress160_eq]
  rfl

/-- C13. `Ripemd128`. -/
theorem C13_ripemd128 (l : List Bytes) :
    Ripemd.ripemd128.finish (Ripemd.ripemd128.updates Ripemd.ripemd128.new l) = Spec.Ripemd.ripemd128 l.flatten := by
  rw [C01_digest_of_chunks Ripemd.ripemd128 Ripemd.lawful, Ripemd.ripemd128,
    Ripemd.digest_eq (M := Ripemd.C128.M) Ripemd.compress128_eq]
  rfl

/-- C13. `Ripemd256`. -/
theorem C13_ripemd256 (l : List Bytes) :
    Ripemd.ripemd256.finish (Ripemd.ripemd256.updates Ripemd.ripemd256.new l) = Spec.Ripemd.ripemd256 l.flatten := by
  rw [C01_digest_of_chunks Ripemd.ripemd256 Ripemd.lawful, Ripemd.ripemd256,
    Ripemd.digest_eq (M := Ripemd.C256.M) Ripemd.compress256_eq]
  rfl

/-- C13. `Ripemd320`. -/
theorem C13_ripemd320 (l : List Bytes) :
    Ripemd.ripemd320.finish (Ripemd.ripemd320.updates Ripemd.ripemd320.new l) = Spec.Ripemd.ripemd320 l.flatten := by
  rw [C01_digest_of_chunks Ripemd.ripemd320 Ripemd.lawful, Ripemd.ripemd320,
    Ripemd.digest_eq (M := Ripemd.C320.M) Ripemd.compress320_eq]
  rfl

/-- Concrete case: RIPEMD-160("abc"). -/
example : Ripemd.ripemd160.finish (Ripemd.ripemd160.updates Ripemd.ripemd160.new [[0x61], [0x62, 0x63]]) =
    [0x8e, 0xb2, 0x08, 0xf7, 0xe0, 0x5d, 0x98, 0x7a, 0x9b, 0x04, 0x4a, 0x8e, 0x98, 0xc6, 0xb0, 0x87,
     0xf1, 0x5a, 0x0b, 0xfc] := by decide +kernel
/-- Concrete case: RIPEMD-320("abc") starts with de4c01b3. -/
example : (Ripemd.ripemd320.finish (Ripemd.ripemd320.updates Ripemd.ripemd320.new [[0x61], [0x62, 0x63]])).take 4 =
    [0xde, 0x4c, 0x01, 0xb3] := by decide +kernel

end Hashes
