import Mathlib.Analysis.Real.Pi.Bounds
import Verif.Spec.Fsb
/- Decimals of π, and FSB with its matrix taken from them. -/
namespace Hashes.Spec

/-- Decimal number `i` of π, counted from 0 after the point. -/
noncomputable def Pi.decimal (i : ℕ) : ℕ := ⌊Real.pi * 10 ^ (i + 1)⌋₊ % 10

namespace Fsb
variable (P : Params)

/-- Bit `j` of column `c`: vector number `c / r` is formed by the parities of `p` consecutive decimals of π, beginning at the multiple
`8 ⌈p/8⌉ · (c / r)` (`p` is prime, so 8 does not divide it); it is rotated by `c % r` positions and truncated to `r` bits. -/
noncomputable def piColumn (c j : Nat) : Bool :=
  decide (Pi.decimal (8 * (P.p / 8 + 1) * (c / P.r) + (j + P.p - c % P.r) % P.p) % 2 = 1)

/-- Compression with the columns from π. -/
noncomputable def piCompress (h m : Bytes) : Bytes :=
  pack (P.r / 8) fun j => (List.range P.w).foldl (fun b i => b ^^ piColumn P (W P h m i) j) false

/-- FSB with the columns from π. -/
noncomputable def piHash (m : Bytes) : Bytes :=
  let bs := (P.s - P.r) / 8
  let h := (chunks bs (mdPad bs 0x80 (beBytes 8 (8 * m.length)) m)).foldl (piCompress P) (List.replicate (P.r / 8) 0)
  (Whirlpool.whirlpool h).take P.out

end Fsb
end Hashes.Spec
