import Verif.Props.Streaming
import Verif.Proof.Groestl
/- C35: Groestl equals its specification. -/
namespace Hashes

/-- C35. `GroestlShort<N>` (e.g. `Groestl256`, `Groestl224`): for every output size `N ≤ 32` the type is usable and over
any chunking of any message equals Groestl-512-bit-state with `N` output bytes. -/
theorem C35_short (N : Nat) (hN : N ≤ 32) : ∃ c, Groestl.core Groestl.short N = some c ∧
    ∀ l : List Bytes, c.finish (c.updates c.new l) = Spec.Groestl.hash Spec.Groestl.p512 N l.flatten := by
  refine ⟨(Groestl.varCore Groestl.short).ctWith N ⟨Groestl.init Groestl.short N, 0⟩, ?_, fun l => ?_⟩
  · exact VarCore.ct_some (v := Groestl.varCore Groestl.short) hN (if_neg (Nat.not_lt.2 hN))
  · rw [C01_digest_of_chunks _ ((Groestl.lawful (by decide)).ct N _)]
    exact Groestl.digest_eq Groestl.match_short (by decide) hN Groestl.count64 _

/-- C35. `GroestlLong<N>` (e.g. `Groestl512`, `Groestl384`) for every `N ≤ 64`. -/
theorem C35_long (N : Nat) (hN : N ≤ 64) : ∃ c, Groestl.core Groestl.long N = some c ∧
    ∀ l : List Bytes, c.finish (c.updates c.new l) = Spec.Groestl.hash Spec.Groestl.p1024 N l.flatten := by
  refine ⟨(Groestl.varCore Groestl.long).ctWith N ⟨Groestl.init Groestl.long N, 0⟩, ?_, fun l => ?_⟩
  · exact VarCore.ct_some (v := Groestl.varCore Groestl.long) hN (if_neg (Nat.not_lt.2 hN))
  · rw [C01_digest_of_chunks _ ((Groestl.lawful (by decide)).ct N _)]
    exact Groestl.digest_eq Groestl.match_long (by decide) hN Groestl.count128 _

/-- C35. Entry `x` of `TABLE[i]`: byte `r` (most significant first) is the matrix entry times the AES S-box value. -/
theorem C35_tables (i : Nat) (hi : i < 8) (x : Nat) (hx : x < 256) (r : Nat) (hr : r < 8) :
    BitVec.ofNat 8 (((Groestl.TABLE.getD i []).getD x 0).toNat / 2 ^ (8 * (7 - r))) =
    Spec.gmul 0x11B (Spec.Groestl.B.getD ((i + 8 - r) % 8) 0) (Spec.Aes.sbox (BitVec.ofNat 8 x)) := by
  rw [ofNat_byteAt]; exact Groestl.tables i hi x hx r hr

/-- Concrete case: Groestl-256 of the empty message. -/
example : (Groestl.core Groestl.short 32).map (fun c => c.finish c.new) = some
    [0x1a, 0x52, 0xd1, 0x1d, 0x55, 0x00, 0x39, 0xbe, 0x16, 0x10, 0x7f, 0x9c, 0x58, 0xdb, 0x9e, 0xbc,
     0xc4, 0x17, 0xf1, 0x6f, 0x73, 0x6a, 0xdb, 0x25, 0x02, 0x56, 0x71, 0x19, 0xf0, 0x08, 0x34, 0x67] := by
  decide +kernel

/-- Concrete case: an output size above the maximum is rejected. -/
example : (Groestl.core Groestl.short 33).isNone = true := by decide

end Hashes
