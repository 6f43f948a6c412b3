import Verif.Props.Streaming
import Verif.Proof.Ascon
/- C45: Ascon-Hash256 and Ascon-XOF128 equal SP 800-232. -/
namespace Hashes

/-- C45. For every permutation `P`, any chunking of any message gives the Ascon-Hash256 sponge over `P`. -/
theorem C45_hash256 (P : V5 W64 → V5 W64) (l : List Bytes) :
    (Ascon.hash256 P).finish ((Ascon.hash256 P).updates (Ascon.hash256 P).new l) =
      Spec.Ascon.sponge P Ascon.ivHash l.flatten 32 := by
  rw [C01_digest_of_chunks _ (Ascon.hash_lawful P)]
  exact Ascon.hash_digest_eq P _

/-- C45. For every permutation `P`, any chunking of any message and any sequence of output reads gives the Ascon-XOF128 stream. -/
theorem C45_xof128 (P : V5 W64 → V5 W64) (l : List Bytes) (sizes : List Nat) :
    ((Ascon.reader P).reads ((Ascon.reader P).reader ((Ascon.xof128 P).finish ((Ascon.xof128 P).updates (Ascon.xof128 P).new l)))
      sizes).1 = Spec.Ascon.sponge P Ascon.ivXof l.flatten sizes.sum := by
  rw [C01_digest_of_chunks _ (Ascon.xof_lawful P), Ascon.xof_digest_eq, XofCore.reads_eq (Ascon.reader_lawful P) trivial,
    XofCore.read_eq (Ascon.reader_lawful P) trivial _ ((sizes.sum + 7) / 8) (by show _ ≤ _ * 8; omega), Ascon.stream_eq,
    Spec.Ascon.sponge]

/-- C45. The hard-coded initial states are the permuted initial values of the standard. -/
theorem C45_iv : Ascon.ivHash = Spec.Ascon.ivHash ∧ Ascon.ivXof = Spec.Ascon.ivXof := by
  constructor <;> decide +kernel

/-- Concrete case: Ascon-Hash256 of the byte 00 with the standard's permutation (repository KAT file, count 2). -/
example : ((Ascon.hash256 Spec.Ascon.p12).finish ((Ascon.hash256 Spec.Ascon.p12).updates (Ascon.hash256 Spec.Ascon.p12).new
    [[], [0], []])).take 4 = [0x07, 0x28, 0x62, 0x10] := by decide +kernel

/-- Concrete case: Ascon-XOF128 of 9 bytes, read as 3 + 6 bytes (repository KAT file, count 10). -/
example : ((Ascon.reader Spec.Ascon.p12).reads ((Ascon.reader Spec.Ascon.p12).reader
    ((Ascon.xof128 Spec.Ascon.p12).finish ((Ascon.xof128 Spec.Ascon.p12).updates (Ascon.xof128 Spec.Ascon.p12).new
      [[0, 1, 2, 3, 4], [5, 6, 7, 8]]))) [3, 6]).1 = [0xDB, 0x30, 0x13, 0xBF, 0xBB, 0xD1, 0x32, 0xDC, 0x1D] := by decide +kernel

end Hashes
