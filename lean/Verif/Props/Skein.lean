import Verif.Props.Streaming
import Verif.Proof.Skein
/- C43: Skein-256/512/1024 equal the Skein 1.3 specification. -/
namespace Hashes

/-- C43. State of `n` ≥ 4 words (the crate: 4, 8, 16), any tweakable block cipher `E` on words with byte-string form `F`, any output
length `N`, any chunking of any message below 2^64 bytes: the digest is the specified one on the whole 8-byte pieces of the output;
the last `N % 8` bytes are zero. Missing for full equality: those `N % 8` bytes (`C43_skein` when there are none, `C43_violated`
when there are some) and messages of 2^64 bytes or more, where the 64-bit position wraps. -/
theorem C43_skein_partial {n : Nat} (hn : 4 ≤ n) (E : Skein.Cipher n) (F : Bytes → BitVec 128 → Bytes → Bytes)
    (hE : ∀ k t x, bytesOfWordsLE (E k t x).toList = F (bytesOfWordsLE k.toList) (t.2 ++ t.1) (bytesOfWordsLE x.toList))
    (N : Nat) (l : List Bytes) (hl : l.flatten.length < 2 ^ 64) :
    (Skein.core E N).finish ((Skein.core E N).updates (Skein.core E N).new l) =
      (Spec.Skein.hash F (8 * n) N l.flatten).take (8 * (N / 8)) ++ List.replicate (N % 8) 0 := by
  rw [C01_digest_of_chunks _ (Skein.lawful N (by omega))]
  exact Skein.digest_eq hE hn N _ hl

theorem skein_take {n : Nat} (F : Bytes → BitVec 128 → Bytes → Bytes) (N : Nat) (m : Bytes) (h : 8 ∣ N) :
    (Spec.Skein.hash F n N m).take (8 * (N / 8)) = Spec.Skein.hash F n N m := by
  apply List.take_of_length_le
  rw [Nat.mul_div_cancel' h, Spec.Skein.hash, Spec.Skein.output]
  exact List.length_take_le _ _

/-- C43. Whenever the output length is a multiple of 8 bytes, the digest is the specified one. -/
theorem C43_skein {n : Nat} (hn : 4 ≤ n) (E : Skein.Cipher n) (F : Bytes → BitVec 128 → Bytes → Bytes)
    (hE : ∀ k t x, bytesOfWordsLE (E k t x).toList = F (bytesOfWordsLE k.toList) (t.2 ++ t.1) (bytesOfWordsLE x.toList))
    (N : Nat) (hN : 8 ∣ N) (l : List Bytes) (hl : l.flatten.length < 2 ^ 64) :
    (Skein.core E N).finish ((Skein.core E N).updates (Skein.core E N).new l) = Spec.Skein.hash F (8 * n) N l.flatten := by
  rw [C43_skein_partial hn E F hE N l hl, skein_take F N _ hN, Nat.mod_eq_zero_of_dvd hN, List.replicate_zero, List.append_nil]

/-- Threefish of the specification on words. -/
def threefish (n : Nat) : Skein.Cipher n := fun k t x =>
  Arr.ofFn n fun i => (Spec.Skein.threefishW n k.toList [t.1, t.2] x.toList).getD i 0

theorem length_threefishW {n : Nat} (hn : n = 4 ∨ n = 8 ∨ n = 16) (k t p : List W64) : (Spec.Skein.threefishW n k t p).length = n := by
  have hfold : ∀ (f : List W64 → Nat → List W64) (r : Nat), (∀ v d, (f v d).length = n) → ((List.range (r + 1)).foldl f p).length = n := by
    intro f r h
    rw [List.range_succ, List.foldl_append, List.foldl_cons, List.foldl_nil, h]
  have hr : Spec.Skein.rounds n = (Spec.Skein.rounds n - 1) + 1 := by rcases hn with rfl | rfl | rfl <;> rfl
  simp only [Spec.Skein.threefishW]
  rw [List.length_zipWith, hr, hfold _ _ (fun v d => by rw [List.length_map]; rcases hn with rfl | rfl | rfl <;> rfl)]
  simp

theorem threefish_octets {n : Nat} (hn : n = 4 ∨ n = 8 ∨ n = 16) (k : Arr 64 n) (t : W64 × W64) (x : Arr 64 n) :
    bytesOfWordsLE (threefish n k t x).toList =
      Spec.Skein.threefish n (bytesOfWordsLE k.toList) (t.2 ++ t.1) (bytesOfWordsLE x.toList) := by
  have hw : ∀ a : Arr 64 n, (List.range n).map (wordLE 64 (bytesOfWordsLE a.toList)) = a.toList := fun a =>
    congrArg Arr.toList (Shabal.arr_round (by decide) a)
  have h0 : (t.2 ++ t.1).extractLsb' 0 64 = t.1 := by
    apply BitVec.eq_of_getLsbD_eq; intro i hi
    rw [BitVec.getLsbD_extractLsb', BitVec.getLsbD_append]; simp [hi]
  have h1 : (t.2 ++ t.1).extractLsb' 64 64 = t.2 := by
    apply BitVec.eq_of_getLsbD_eq; intro i hi
    rw [BitVec.getLsbD_extractLsb', BitVec.getLsbD_append]; simp [hi]
  rw [Spec.Skein.threefish, hw, hw, h0, h1]
  congr 1
  have hl := length_threefishW hn k.toList [t.1, t.2] x.toList
  apply List.ext_getElem
  · simp [hl]
  · intro i h _
    simp only [threefish, Arr.ofFn, Arr.toList, List.getElem_map, List.getElem_range]
    rw [List.getD_eq_getElem?_getD, List.getElem?_eq_getElem, Option.getD_some]

/-- C43. With Threefish, the three crate types `Skein256<N>`, `Skein512<N>`, `Skein1024<N>` return the specified digest for every
output length `N` that is a multiple of 8 bytes and every chunking of every message below 2^64 bytes. -/
theorem C43_standard {n : Nat} (hn : n = 4 ∨ n = 8 ∨ n = 16) (N : Nat) (hN : 8 ∣ N) (l : List Bytes) (hl : l.flatten.length < 2 ^ 64) :
    (Skein.core (threefish n) N).finish ((Skein.core (threefish n) N).updates (Skein.core (threefish n) N).new l) =
      Spec.Skein.hash (Spec.Skein.threefish n) (8 * n) N l.flatten :=
  C43_skein (by omega) _ _ (threefish_octets hn) N hN l hl

/-- Violation of the unrestricted claim: Skein-256 with a one-byte output returns a zero byte where the specification gives 0x34. -/
theorem C43_violated : ∃ (N : Nat) (m : Bytes), (Skein.core (threefish 4) N).finish ((Skein.core (threefish 4) N).updates (Skein.core (threefish 4) N).new [m]) ≠
    Spec.Skein.hash (Spec.Skein.threefish 4) 32 N m := ⟨1, [], by decide +kernel⟩

/-- Concrete case: Skein-256-256 of FF (specification, appendix C.1): first bytes. -/
example : ((Skein.core (threefish 4) 32).finish ((Skein.core (threefish 4) 32).updates (Skein.core (threefish 4) 32).new [[], [0xff]])).take 4 =
    [0x0b, 0x98, 0xdc, 0xd1] := by decide +kernel
/-- Concrete case: the affected outputs really are zero-filled, on a nine-byte output. -/
example : ((Skein.core (threefish 4) 9).finish ((Skein.core (threefish 4) 9).updates (Skein.core (threefish 4) 9).new [[0xff]])).drop 8 = [0] := by
  decide +kernel

end Hashes
