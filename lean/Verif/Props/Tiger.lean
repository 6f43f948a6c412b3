import Verif.Props.Streaming
import Verif.Proof.Tiger
/- C39: Tiger and Tiger2 equal the designers' definition. -/
namespace Hashes

/-- C39. `Tiger` over any chunking of any message equals Tiger (pad byte 0x01) with the S-boxes produced by the designers'
generation procedure. -/
theorem C39_tiger (l : List Bytes) :
    Tiger.tiger.finish (Tiger.tiger.updates Tiger.tiger.new l) =
      Spec.Tiger.hash Spec.Tiger.Gen.sbox 0x01 l.flatten := by
  rw [C01_digest_of_chunks Tiger.tiger (Tiger.lawful _ _), Tiger.tiger_digest_eq]

/-- C39. `Tiger2` is the same with pad byte 0x80. -/
theorem C39_tiger2 (l : List Bytes) :
    Tiger.tiger2.finish (Tiger.tiger2.updates Tiger.tiger2.new l) =
      Spec.Tiger.hash Spec.Tiger.Gen.sbox 0x80 l.flatten := by
  rw [C01_digest_of_chunks Tiger.tiger2 (Tiger.lawful _ _), Tiger.tiger2_digest_eq]

/-- C39. The 8192 bytes of tables.bin are the S-boxes the designers' procedure generates. -/
theorem C39_tables : ∀ k < 4, ∀ v < 256, (Tiger.TABLES.getD k []).getD v 0 = Spec.Tiger.Gen.sbox k v :=
  Tiger.tables_eq

/-- Concrete case: Tiger("abc") = 2AAB1484E8C158F2 BFB8C5FF41B57A52 5129131C957B5F93. -/
example : Tiger.tiger.finish (Tiger.tiger.updates Tiger.tiger.new [[0x61, 0x62], [0x63]]) =
    [0x2a, 0xab, 0x14, 0x84, 0xe8, 0xc1, 0x58, 0xf2, 0xbf, 0xb8, 0xc5, 0xff, 0x41, 0xb5, 0x7a, 0x52,
     0x51, 0x29, 0x13, 0x1c, 0x95, 0x7b, 0x5f, 0x93] := by
  decide +kernel

/-- Concrete case: Tiger2(""), different from Tiger(""). -/
example : Tiger.tiger2.finish Tiger.tiger2.new =
    [0x44, 0x41, 0xbe, 0x75, 0xf6, 0x01, 0x87, 0x73, 0xc2, 0x06, 0xc2, 0x27, 0x45, 0x37, 0x4b, 0x92,
     0x4a, 0xa8, 0x31, 0x3f, 0xef, 0x91, 0x9f, 0x41] := by
  decide +kernel

end Hashes
