import Verif.Props.Streaming
import Verif.Proof.Jh
/- C38: JH equals its specification. -/
namespace Hashes

/-- C38. For each of the four sizes, any chunking of any message of fewer than 2^64 bits gives the JH digest of the specification:
the bit-sliced rounds, the round constants, the four hard-coded initial values and the padding are all derived from it. -/
theorem C38_jh (N : Nat) (c : Core Jh.State Bytes) (hc : Jh.core N = some c) (l : List Bytes) (hl : 8 * l.flatten.length < 2 ^ 64) :
    c.finish (c.updates c.new l) = Spec.Jh.hash N l.flatten := by
  obtain ⟨_, s0, h0, rfl⟩ := VarCore.ct_inv hc
  rw [C01_digest_of_chunks _ (Jh.lawful.ct N s0)]
  exact Jh.digest_eq h0 _ hl

/-- C38. The supported sizes are exactly 28, 32, 48 and 64 bytes. -/
theorem C38_sizes (N : Nat) : (Jh.core N).isSome ↔ N = 28 ∨ N = 32 ∨ N = 48 ∨ N = 64 := by
  unfold Jh.core VarCore.ct Jh.varCore Jh.new
  constructor
  · intro h
    by_contra hn
    simp only [not_or] at hn
    split at h <;> simp_all
  · rintro (rfl | rfl | rfl | rfl) <;> rfl

/-- Concrete case: first bytes of JH-256 of the empty message. -/
example : ((Jh.core 32).map fun c => (c.finish c.new).take 4) = some [0x46, 0xe6, 0x46, 0x19] := by decide +kernel

/-- Concrete case: the element view of the specification on a round constant. -/
example : (Spec.Jh.C 1).take 4 = [0xb, 0xb, 0x8, 0x9] := by decide +kernel

end Hashes
