import Verif.Props.Streaming
import Verif.Proof.Sha512
import Verif.Proof.Sha1
/- C06, C07, C08: the SHA-2 family and SHA-1 equal FIPS 180-4. -/
namespace Hashes

theorem Sha256.iv256_eq : Spec.Sha256.IV256 = Sha256.H256_256 := by decide +kernel
theorem Sha256.iv224_eq : Spec.Sha256.IV224 = Sha256.H256_224 := by decide +kernel

theorem Sha256.length_be8 (s : V8 W32) : (bytesOfWordsBE s.toList).length = 32 := by
  rw [length_bytesOfWordsBE]; rfl

/-- C06. `Sha256` over any chunking of the message equals FIPS 180-4 SHA-256 (`Spec.Sha256.sha256`, whose
length field is the bit length modulo 2^64; FIPS defines it for lengths below 2^61 bytes). -/
theorem C06_sha256 (l : List Bytes) :
    Sha256.sha256.finish (Sha256.sha256.updates Sha256.sha256.new l) = Spec.Sha256.sha256 l.flatten := by
  rw [C01_digest_of_chunks Sha256.sha256 (Sha256.lawful.ct _ _)]
  rw [Sha256.sha256, Sha256.digest_chain, Spec.Sha256.sha256, Sha256.iv256_eq]
  rw [List.take_of_length_le (by rw [Sha256.length_be8]; exact Nat.le_refl _)]

/-- C06. `Sha224` equals FIPS 180-4 SHA-224. -/
theorem C06_sha224 (l : List Bytes) :
    Sha256.sha224.finish (Sha256.sha224.updates Sha256.sha224.new l) = Spec.Sha256.sha224 l.flatten := by
  rw [C01_digest_of_chunks Sha256.sha224 (Sha256.lawful.ct _ _)]
  rw [Sha256.sha224, Sha256.digest_chain, Spec.Sha256.sha224, Sha256.iv224_eq]

/-- Concrete case: "abc" in two chunks. -/
example : Sha256.sha256.finish (Sha256.sha256.updates Sha256.sha256.new [[0x61], [0x62, 0x63]]) =
    [0xba, 0x78, 0x16, 0xbf, 0x8f, 0x01, 0xcf, 0xea, 0x41, 0x41, 0x40, 0xde, 0x5d, 0xae, 0x22, 0x23,
     0xb0, 0x03, 0x61, 0xa3, 0x96, 0x17, 0x7a, 0x9c, 0xb4, 0x10, 0xff, 0x61, 0xf2, 0x00, 0x15, 0xad] := by
  decide +kernel

/-! ### SHA-512 family -/

theorem Sha512.iv512_eq : Spec.Sha512.IV512 = Sha512.H512_512 := by decide +kernel
theorem Sha512.iv384_eq : Spec.Sha512.IV384 = Sha512.H512_384 := by decide +kernel
theorem Sha512.iv256_eq : Spec.Sha512.ivGen Spec.Sha512.name256 = Sha512.H512_256 := by decide +kernel
theorem Sha512.iv224_eq : Spec.Sha512.ivGen Spec.Sha512.name224 = Sha512.H512_224 := by decide +kernel

/-- C07. `Sha512` equals FIPS 180-4 SHA-512 (128-bit length field), for every chunking. -/
theorem C07_sha512 (l : List Bytes) :
    Sha512.sha512.finish (Sha512.sha512.updates Sha512.sha512.new l) = Spec.Sha512.sha512 l.flatten := by
  rw [C01_digest_of_chunks Sha512.sha512 (Sha512.lawful.ct _ _)]
  rw [Sha512.sha512, Sha512.digest_chain, Spec.Sha512.sha512, Sha512.iv512_eq]
  rw [List.take_of_length_le (by rw [length_bytesOfWordsBE]; exact Nat.le_refl _)]

/-- C07. `Sha384` equals FIPS 180-4 SHA-384. -/
theorem C07_sha384 (l : List Bytes) :
    Sha512.sha384.finish (Sha512.sha384.updates Sha512.sha384.new l) = Spec.Sha512.sha384 l.flatten := by
  rw [C01_digest_of_chunks Sha512.sha384 (Sha512.lawful.ct _ _)]
  rw [Sha512.sha384, Sha512.digest_chain, Spec.Sha512.sha384, Sha512.iv384_eq]

/-- C07. `Sha512_256` equals FIPS 180-4 SHA-512/256, initial value computed by the standard's generation function. -/
theorem C07_sha512_256 (l : List Bytes) :
    Sha512.sha512_256.finish (Sha512.sha512_256.updates Sha512.sha512_256.new l) =
      Spec.Sha512.sha512_256 l.flatten := by
  rw [C01_digest_of_chunks Sha512.sha512_256 (Sha512.lawful.ct _ _)]
  rw [Sha512.sha512_256, Sha512.digest_chain, Spec.Sha512.sha512_256, Sha512.iv256_eq]

/-- C07. `Sha512_224` equals FIPS 180-4 SHA-512/224. -/
theorem C07_sha512_224 (l : List Bytes) :
    Sha512.sha512_224.finish (Sha512.sha512_224.updates Sha512.sha512_224.new l) =
      Spec.Sha512.sha512_224 l.flatten := by
  rw [C01_digest_of_chunks Sha512.sha512_224 (Sha512.lawful.ct _ _)]
  rw [Sha512.sha512_224, Sha512.digest_chain, Spec.Sha512.sha512_224, Sha512.iv224_eq]

/-- Concrete case: SHA-512("abc") starts with ddaf35a193617aba. -/
example : (Sha512.sha512.finish (Sha512.sha512.updates Sha512.sha512.new [[0x61, 0x62], [], [0x63]])).take 8 =
    [0xdd, 0xaf, 0x35, 0xa1, 0x93, 0x61, 0x7a, 0xba] := by decide +kernel

/-! ### SHA-1 -/

/-- C08. `Sha1` equals FIPS 180-4 SHA-1, for every chunking. -/
theorem C08_sha1 (l : List Bytes) :
    Sha1.sha1.finish (Sha1.sha1.updates Sha1.sha1.new l) = Spec.Sha1.sha1 l.flatten := by
  rw [C01_digest_of_chunks Sha1.sha1 Sha1.lawful, Sha1.digest_eq]

/-- Concrete case: SHA-1("abc"). -/
example : Sha1.sha1.finish (Sha1.sha1.updates Sha1.sha1.new [[0x61, 0x62], [], [0x63]]) =
    [0xa9, 0x99, 0x3e, 0x36, 0x47, 0x06, 0x81, 0x6a, 0xba, 0x3e, 0x25, 0x71, 0x78, 0x50, 0xc2, 0x6c,
     0x9c, 0xd0, 0xd8, 0x9d] := by decide +kernel

end Hashes
