import Verif.Props.Streaming
import Verif.Proof.Fsb
/- C42: FSB equals its specification and never indexes out of range. -/
namespace Hashes

/-- The five crate types and the parameter sets of the submission. -/
def fsbSets : List (Fsb.Params × Spec.Fsb.Params) :=
  [(Fsb.fsb160, Spec.Fsb.fsb160), (Fsb.fsb224, Spec.Fsb.fsb224), (Fsb.fsb256, Spec.Fsb.fsb256), (Fsb.fsb384, Spec.Fsb.fsb384),
   (Fsb.fsb512, Spec.Fsb.fsb512)]

theorem fsbSets_mem {x : Fsb.Params × Spec.Fsb.Params} (h : x ∈ fsbSets) : x.1 ∈ Fsb.all ∧ x.2 = Fsb.toSpec x.1 ∧
    x.1.n / x.1.r * (x.1.p / 8 + 1) ≤ 272384 := by
  simp only [fsbSets, List.mem_cons, List.not_mem_nil, or_false] at h
  rcases h with rfl | rfl | rfl | rfl | rfl <;> exact ⟨by decide, rfl, by decide⟩

/-- C42. For every table `PI` of the size of pi.bin and every chunking of every message, each FSB type returns (no panic) the digest of
the bit-level specification. -/
theorem C42_fsb (x : Fsb.Params × Spec.Fsb.Params) (hx : x ∈ fsbSets) (PI : Bytes) (hPI : PI.length = 272384) (l : List Bytes) :
    (Fsb.core x.1 PI).finish ((Fsb.core x.1 PI).updates (Fsb.core x.1 PI).new l) = some (Spec.Fsb.hash x.2 PI l.flatten) := by
  obtain ⟨h1, h2, h3⟩ := fsbSets_mem hx
  have g := Fsb.good h1
  rw [C01_digest_of_chunks _ (Fsb.lawful g (by rw [hPI]; exact h3)), Fsb.digest_eq g (by rw [hPI]; exact h3), h2]

/-- C42. The compression function: no table access, subtraction, addition or shift is out of range, and the result is the sum of the
chosen columns. -/
theorem C42_compress (x : Fsb.Params × Spec.Fsb.Params) (hx : x ∈ fsbSets) (PI : Bytes) (hPI : PI.length = 272384) (h m : Bytes)
    (hh : h.length = x.1.r / 8) (hm : m.length = x.1.bs) :
    Fsb.compress x.1 PI h m = some (Spec.Fsb.compress x.2 PI h m) := by
  obtain ⟨h1, h2, h3⟩ := fsbSets_mem hx
  rw [Fsb.compress_eq (Fsb.good h1) (by rw [hPI]; exact h3) h m hh hm, h2]

/-- C42. The byte-wise shift-and-truncate is the bit rotation, for every parameter choice with `8 ∣ r ≤ p`, `8 ∤ p`. -/
theorem C42_rotation (P : Fsb.Params) (hr : 8 ∣ P.r) (hrp : P.r ≤ P.p) (hc : ¬ 8 ∣ P.p) (a : Bytes) (hl : a.length = P.p / 8 + 1)
    (hz : ∀ j, P.p ≤ j → Spec.Fsb.bit a j = false) (sv : Nat) (hs : sv < P.r) :
    ∃ t, Fsb.shiftAndTruncate P a sv = some t ∧ t.length = P.r / 8 ∧
      ∀ j < P.r, Spec.Fsb.bit t j = Spec.Fsb.bit a ((j + P.p - sv) % P.p) := by
  have := Fsb.sat_eq (P := P) (a := a) (sv := sv) (Nat.mul_div_cancel' hr) hrp (fun h => hc (Nat.dvd_of_mod_eq_zero h)) hl hz hs
  rwa [Nat.mul_div_cancel' hr] at this

/-- Concrete cases: rotating the 653-bit vector 80 00 … 00 by 1, 5, 13 and 639 positions moves its single bit there. -/
example : ∀ sv ∈ [0, 1, 5, 6, 13, 639], Fsb.shiftAndTruncate Fsb.fsb160 (0x80 :: List.replicate 81 0) sv =
    some (Spec.Fsb.pack 80 fun j => j == sv) := by decide +kernel
/-- Concrete case: the bound on the shift matters; a shift of 700 would panic. -/
example : Fsb.shiftAndTruncate Fsb.fsb160 (List.replicate 82 0) 700 = none := by decide +kernel
/-- Concrete case: six-bit groups of the bytes 0x04, 0x20, 0xc4 …: 1, 2, 3, 4. -/
example : ((Fsb.dividingBits Fsb.fsb160 ([0x04, 0x20, 0xc4] ++ List.replicate 57 0) 6).map fun d => d.take 5) = some [1, 2, 3, 4, 0] := by
  decide +kernel

end Hashes
