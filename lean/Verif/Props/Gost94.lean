import Verif.Props.Streaming
import Verif.Proof.Gost94
/- C40: GOST94 equals GOST R 34.11-94; C30 for its 256-bit registers. -/
namespace Hashes

/-- C40. For every substitution table and every 32-byte initial value, any chunking of any message gives the digest of
GOST R 34.11-94 with that table and initial value. -/
theorem C40_gost94 (sb : List (List Byte)) (h0 : Bytes) (hh : h0.length = 32) (l : List Bytes) :
    (Gost94.gost94 sb h0).finish ((Gost94.gost94 sb h0).updates (Gost94.gost94 sb h0).new l) =
      Spec.Gost94.hash sb (Spec.Gost94.vec h0) l.flatten := by
  rw [C01_digest_of_chunks _ (Gost94.lawful hh)]
  exact Gost94.digest_eq hh _

/-- C40. The four public types are this function with the four tables and initial value zero. -/
theorem C40_types (l : List Bytes) :
    Gost94.cryptoPro.finish (Gost94.cryptoPro.updates Gost94.cryptoPro.new l) = Spec.Gost94.hash Gost94.cryptoProBox 0 l.flatten ∧
    Gost94.s2015.finish (Gost94.s2015.updates Gost94.s2015.new l) = Spec.Gost94.hash Gost94.s2015Box 0 l.flatten ∧
    Gost94.test.finish (Gost94.test.updates Gost94.test.new l) = Spec.Gost94.hash Gost94.testBox 0 l.flatten ∧
    Gost94.ua.finish (Gost94.ua.updates Gost94.ua.new l) = Spec.Gost94.hash Gost94.uaBox 0 l.flatten := by
  have hz : Spec.Gost94.vec Gost94.H0 = 0 := by decide +kernel
  have h := fun sb => C40_gost94 sb Gost94.H0 rfl l
  rw [hz] at h
  exact ⟨h _, h _, h _, h _⟩

/-- C40. Every row of every table is a permutation of the nibbles. -/
theorem C40_boxes : ∀ sb ∈ [Gost94.cryptoProBox, Gost94.s2015Box, Gost94.testBox, Gost94.uaBox],
    sb.length = 8 ∧ ∀ r ∈ sb, r.length = 16 ∧ ∀ y < 16, r.contains (BitVec.ofNat 8 y) = true := by
  decide +kernel

/-- C30 (GOST94). `update_n` adds the bit length to the 256-bit counter, modulo 2^256, for every `usize` byte length. -/
theorem C30_gost94_n (n : V4 W64) (len : W64) :
    Spec.limbsLE (Gost94.updateN n len).toList = (Spec.limbsLE n.toList + 8 * len.toNat) % 2 ^ 256 :=
  Gost94.val_updateN n len

/-- C30 (GOST94). `update_sigma` adds the block, as a little-endian number, modulo 2^256. -/
theorem C30_gost94_sigma (s : V4 W64) (m : Bytes) (hm : m.length = 32) :
    Spec.limbsLE (Gost94.updateSigma s m).toList = (Spec.limbsLE s.toList + ofLE m) % 2 ^ 256 := by
  have e : Spec.limbsLE (V4.ofFn (wordLE 64 m)).toList = ofLE m := limbs_words m 4 (by omega)
  rw [← e]
  exact Gost94.val_addLimbs s _

/-- C30 (GOST94). The single call `update_n(32 * blocks.len())` of the code equals the per-block additions of the model. -/
theorem C30_gost94_slice (n : V4 W64) (l : List Bytes) (h : l.length < 2 ^ 59) :
    Gost94.updateN n (BitVec.ofNat 64 (32 * l.length)) = l.foldl (fun n _ => Gost94.updateN n 32) n :=
  Gost94.updateN_slice n l h

/-- Concrete case: first bytes of the CryptoPro hash of the empty message. -/
example : ((Gost94.cryptoPro.finish Gost94.cryptoPro.new).take 4) = [0x98, 0x1e, 0x5f, 0x3c] := by decide +kernel

/-- Concrete case: a carry out of the second limb. -/
example : Gost94.updateN ⟨-8, -1, 0, 7⟩ 1 = ⟨0, 0, 1, 7⟩ := by decide

end Hashes
