import Verif.Props.Streaming
import Verif.Proof.Kupyna
import Verif.Proof.Sha1Dv -- not used: keeps memory-hungry modules from being checked at the same time
/- C37: Kupyna equals DSTU 7564:2014. -/
namespace Hashes

/-- The S-boxes of the code as functions (parameter of the specification). -/
def kupynaPi (i : Nat) (x : Byte) : Byte := (Kupyna.SBOXES.getD i []).getD x.toNat 0

/-- C37. `KupynaShort<N>` (e.g. `Kupyna256`): every output size `N ≤ 32` is accepted, and over any chunking of any message
of fewer than `2^64` blocks (the range of the `u64` block counter) the result is the standard digest. -/
theorem C37_short (N : Nat) (hN : N ≤ 32) : ∃ c, Kupyna.core Kupyna.short N = some c ∧
    ∀ l : List Bytes, l.flatten.length / 64 < 2 ^ 64 →
      c.finish (c.updates c.new l) = Spec.Kupyna.hash Spec.Kupyna.p512 kupynaPi N l.flatten := by
  refine ⟨(Kupyna.varCore Kupyna.short).ctWith N (Kupyna.init Kupyna.short), ?_, fun l hl => ?_⟩
  · exact VarCore.ct_some (v := Kupyna.varCore Kupyna.short) hN
      (if_neg fun h => h.elim (fun h => Nat.not_lt_zero _ h) (Nat.not_lt.2 hN))
  · rw [C01_digest_of_chunks _ ((Kupyna.lawful (by decide)).ct N _)]
    exact Kupyna.digest_eq Kupyna.match_short hN _ hl

/-- C37. `KupynaLong<N>` (e.g. `Kupyna384`, `Kupyna512`): output sizes `32 ≤ N ≤ 64`. -/
theorem C37_long (N : Nat) (h32 : 32 ≤ N) (hN : N ≤ 64) : ∃ c, Kupyna.core Kupyna.long N = some c ∧
    ∀ l : List Bytes, l.flatten.length / 128 < 2 ^ 64 →
      c.finish (c.updates c.new l) = Spec.Kupyna.hash Spec.Kupyna.p1024 kupynaPi N l.flatten := by
  refine ⟨(Kupyna.varCore Kupyna.long).ctWith N (Kupyna.init Kupyna.long), ?_, fun l hl => ?_⟩
  · exact VarCore.ct_some (v := Kupyna.varCore Kupyna.long) hN
      (if_neg fun h => h.elim (fun h => Nat.not_lt.2 h32 h) (Nat.not_lt.2 hN))
  · rw [C01_digest_of_chunks _ ((Kupyna.lawful (by decide)).ct N _)]
    exact Kupyna.digest_eq Kupyna.match_long hN _ hl

/-- C37. Each of the four S-boxes has 256 entries and is a permutation of the bytes. -/
theorem C37_sboxes : ∀ i < 4, (Kupyna.SBOXES.getD i []).length = 256 ∧
    ∀ y < 256, ((Kupyna.SBOXES.getD i []).map BitVec.toNat).contains y = true := by
  decide +kernel

/-- Concrete case: first bytes of Kupyna-256 of the empty message. -/
example : (Kupyna.core Kupyna.short 32).map (fun c => (c.finish c.new).take 8) =
    some [0xcd, 0x51, 0x01, 0xd1, 0xcc, 0xdf, 0x0d, 0x1d] := by
  decide +kernel

/-- Concrete case: `KupynaLong` rejects 31 bytes and `KupynaShort` rejects 33. -/
example : (Kupyna.core Kupyna.long 31).isNone = true ∧ (Kupyna.core Kupyna.short 33).isNone = true := by decide

end Hashes
