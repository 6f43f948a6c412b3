import Verif.Props.Streaming
import Verif.Proof.Belt
/- C44: BelT hash equals STB 34.101.31. -/
namespace Hashes

/-- C44. For every block cipher `E` on words and its octet-string form `F`, any chunking of any message gives the belt-hash of
STB 34.101.31 built from `F`. -/
theorem C44_belt (E : Belt.Cipher) (F : Bytes → Bytes → Bytes)
    (hE : ∀ x k, bytesOfWordsLE (E x k).toList = F (bytesOfWordsLE k.toList) (bytesOfWordsLE x.toList)) (l : List Bytes) :
    (Belt.belt E).finish ((Belt.belt E).updates (Belt.belt E).new l) = Spec.Belt.hash F l.flatten := by
  rw [C01_digest_of_chunks _ (Belt.lawful E)]
  exact Belt.digest_eq hE _

/-- The standard's block cipher on words. -/
def beltBlock : Belt.Cipher := fun x k => V4.ofFn (wordLE 32 (Spec.Belt.block (bytesOfWordsLE k.toList) (bytesOfWordsLE x.toList)))

/-- C44. With the block cipher of the standard, the digest is that of the standard. -/
theorem C44_standard (l : List Bytes) :
    (Belt.belt beltBlock).finish ((Belt.belt beltBlock).updates (Belt.belt beltBlock).new l) =
      Spec.Belt.hash Spec.Belt.block l.flatten := by
  apply C44_belt
  intro x k
  have hlen : (Spec.Belt.block (bytesOfWordsLE k.toList) (bytesOfWordsLE x.toList)).length = 16 := by
    rw [Spec.Belt.block, length_bytesOfWordsLE]; rfl
  rw [beltBlock, show ∀ f : Nat → W32, (V4.ofFn f).toList = (List.range 4).map f from fun _ => rfl,
    bytesOfWordsLE_range (by decide) _ _ (by omega), List.take_of_length_le (by omega)]

/-- Concrete case: belt-hash of the first 13 octets of the table `H` (standard, table A.23): first octets. -/
example : ((Belt.belt beltBlock).finish ((Belt.belt beltBlock).updates (Belt.belt beltBlock).new
    [Spec.Belt.H.take 5, (Spec.Belt.H.take 13).drop 5])).take 4 = [0xab, 0xef, 0x97, 0x25] := by decide +kernel

end Hashes
