import Verif.Props.Fsb
import Verif.Proof.FsbPi
/- C55: the table of FSB is the sequence of parities of the decimals of π, and the crate hashes with the matrix from it. -/
namespace Hashes

/-- C55. pi.bin has the size declared in lib.rs:19, and bit `i` (most significant bit of a byte first) of it is the parity of decimal
`i` of π, for all of its 2179072 bits. -/
theorem C55_table : Fsb.piBin.length = 272384 ∧
    ∀ i < 8 * 272384, Spec.Fsb.bit Fsb.piBin i = decide (Spec.Pi.decimal i % 2 = 1) :=
  ⟨Pi.length_piBin, Pi.bit_piBin⟩

/-- C55. For every chunking of every message, each FSB type, with the table it ships, returns (no panic) the digest of the specification
in which the matrix is taken from the decimals of π. -/
theorem C55_fsb (x : Fsb.Params × Spec.Fsb.Params) (hx : x ∈ fsbSets) (l : List Bytes) :
    (Fsb.core x.1 Fsb.piBin).finish ((Fsb.core x.1 Fsb.piBin).updates (Fsb.core x.1 Fsb.piBin).new l) =
      some (Spec.Fsb.piHash x.2 l.flatten) := by
  obtain ⟨h1, h2, h3⟩ := fsbSets_mem hx
  rw [C42_fsb x hx Fsb.piBin Pi.length_piBin l, h2, Fsb.hash_pi (Fsb.good h1) h3]

/-- C55. The compression function of each type, with the shipped table. -/
theorem C55_compress (x : Fsb.Params × Spec.Fsb.Params) (hx : x ∈ fsbSets) (h m : Bytes) (hh : h.length = x.1.r / 8) (hm : m.length = x.1.bs) :
    Fsb.compress x.1 Fsb.piBin h m = some (Spec.Fsb.piCompress x.2 h m) := by
  obtain ⟨h1, h2, h3⟩ := fsbSets_mem hx
  rw [C42_compress x hx Fsb.piBin Pi.length_piBin h m hh hm, h2, Fsb.compress_pi (Fsb.good h1) h3]

/-- C55. Each type reads only the part of the table it needs: 1024 or 2048 vectors; FSB-256 uses all of it. -/
theorem C55_extent : fsbSets.map (fun x => x.1.n / x.1.r * x.1.sizeVectors) = [167936, 233472, 272384, 190464, 254976] := by decide

/-- Concrete case: π = 3.1415926535…, so the first ten bits are 1011100111 (b9, 11…). -/
example : (List.range 10).map (Spec.Fsb.bit (Fsb.piBin.take 2)) = [true, false, true, true, true, false, false, true, true, true] := by
  decide +kernel
/-- Concrete case: the first decimal of π is 1. -/
example : Spec.Pi.decimal 0 = 1 := by
  have h : ⌊Real.pi * 10 ^ (0 + 1)⌋₊ = 31 := by
    rw [Nat.floor_eq_iff (by positivity)]
    have h1 := Real.pi_gt_d2
    have h2 := Real.pi_lt_d2
    constructor <;> norm_num at * <;> linarith
  rw [Spec.Pi.decimal, h]

end Hashes
