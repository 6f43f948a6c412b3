import Verif.Props.Streaming
import Verif.Proof.Md5
import Verif.Proof.Md4
import Verif.Proof.Md2
/- C10, C11, C12: MD5, MD4, MD2 equal RFC 1321, RFC 1320, RFC 1319. -/
namespace Hashes

/-- C10. `Md5` over any chunking of any message equals RFC 1321 (constants computed from the sine series,
length modulo 2^64 as the RFC prescribes). -/
theorem C10_md5 (l : List Bytes) :
    Md5.md5.finish (Md5.md5.updates Md5.md5.new l) = Spec.Md5.md5 l.flatten := by
  rw [C01_digest_of_chunks Md5.md5 Md5.lawful, Md5.digest_eq]

/-- Concrete case: MD5("abc"). -/
example : Md5.md5.finish (Md5.md5.updates Md5.md5.new [[0x61, 0x62], [0x63]]) =
    [0x90, 0x01, 0x50, 0x98, 0x3c, 0xd2, 0x4f, 0xb0, 0xd6, 0x96, 0x3f, 0x7d, 0x28, 0xe1, 0x7f, 0x72] := by
  decide +kernel

/-- C11. `Md4` equals RFC 1320. -/
theorem C11_md4 (l : List Bytes) :
    Md4.md4.finish (Md4.md4.updates Md4.md4.new l) = Spec.Md4.md4 l.flatten := by
  rw [C01_digest_of_chunks Md4.md4 Md4.lawful, Md4.digest_eq]

/-- Concrete case: MD4("abc"). -/
example : Md4.md4.finish (Md4.md4.updates Md4.md4.new [[0x61], [], [0x62, 0x63]]) =
    [0xa4, 0x48, 0x01, 0x7a, 0xaf, 0x21, 0xd8, 0x52, 0x5f, 0xc1, 0x0a, 0xe8, 0x7a, 0xa6, 0x72, 0x9d] := by
  decide +kernel

/-- C12. `Md2` equals RFC 1319 (with the checksum erratum): block-by-block checksumming gives the checksum of the
whole padded message, appended as a last block. -/
theorem C12_md2 (l : List Bytes) :
    Md2.md2.finish (Md2.md2.updates Md2.md2.new l) = Spec.Md2.md2 l.flatten := by
  rw [C01_digest_of_chunks Md2.md2 Md2.lawful, Md2.digest_eq]

/-- Concrete case: MD2("abc"). -/
example : Md2.md2.finish (Md2.md2.updates Md2.md2.new [[0x61], [], [0x62, 0x63]]) =
    [0xda, 0x85, 0x3b, 0x0d, 0x3f, 0x88, 0xd9, 0x9b, 0x30, 0x28, 0x3a, 0x69, 0xe6, 0xde, 0xd6, 0xbb] := by
  decide +kernel

end Hashes
