import Verif.Props.Streaming
import Verif.Proof.Shabal
/- C41: Shabal equals its specification. -/
namespace Hashes

/-- C41. For each supported size, any chunking of any message gives the Shabal digest of the submission document, with the initial
state computed from the two prefix blocks. -/
theorem C41_shabal (N : Nat) (c : Core Shabal.State Bytes) (hc : Shabal.core N = some c) (l : List Bytes) :
    c.finish (c.updates c.new l) = Spec.Shabal.hash N l.flatten := by
  obtain ⟨_, s0, h0, rfl⟩ := VarCore.ct_inv hc
  rw [C01_digest_of_chunks _ (Shabal.lawful.ct N s0)]
  exact Shabal.digest_eq h0 _

/-- C41. The supported sizes are exactly 24, 28, 32, 48 and 64 bytes. -/
theorem C41_sizes (N : Nat) : (Shabal.core N).isSome ↔ N = 24 ∨ N = 28 ∨ N = 32 ∨ N = 48 ∨ N = 64 := by
  unfold Shabal.core VarCore.ct Shabal.varCore Shabal.new
  constructor
  · intro h
    by_contra hn
    simp only [not_or] at hn
    split at h <;> simp_all
  · rintro (rfl | rfl | rfl | rfl | rfl) <;> rfl

/-- Concrete case: first bytes of Shabal-256 of the empty message. -/
example : ((Shabal.core 32).map fun c => (c.finish c.new).take 4) = some [0xae, 0xc7, 0x50, 0xd1] := by decide +kernel

end Hashes
