import Verif.Spec.Grid
import Verif.Spec.Padding
/- Whirlpool, written from ISO/IEC 10118-3 / P. Barreto and V. Rijmen, "The Whirlpool Hashing Function" (2003 version).
Independent of the model. -/
namespace Hashes.Spec.Whirlpool

/-- Mini-box `E` (exponential). -/
def E : List Nat := [0x1, 0xB, 0x9, 0xC, 0xD, 0x6, 0xF, 0x3, 0xE, 0x8, 0x7, 0x4, 0xA, 0x2, 0x5, 0x0]
/-- Mini-box `E⁻¹`. -/
def Einv (y : Nat) : Nat := E.findIdx (· == y)
/-- Pseudo-random mini-box `R`. -/
def R : List Nat := [0x7, 0xC, 0xB, 0xD, 0xE, 0x4, 0x9, 0xF, 0x6, 0x3, 0x8, 0xA, 0x2, 0x5, 0x1, 0x0]

/-- The S-box, built from the mini-boxes. -/
def S (x : Byte) : Byte :=
  let u := E.getD (x.toNat / 16) 0
  let v := Einv (x.toNat % 16)
  let r := R.getD (u ^^^ v) 0
  BitVec.ofNat 8 (16 * E.getD (u ^^^ r) 0 + Einv (v ^^^ r))

/-- First row of the circulant diffusion matrix. -/
def c : List Byte := [0x01, 0x01, 0x04, 0x01, 0x08, 0x05, 0x02, 0x09]

/-- Nonlinear layer γ. -/
def gamma (a : Grid) : Grid := grid 8 8 fun i j => S (cell a i j)
/-- Cyclical permutation π: column `j` moves down by `j` positions. -/
def pi (a : Grid) : Grid := grid 8 8 fun i j => cell a ((i + 8 - j) % 8) j
/-- Linear diffusion θ: `a · cir(c)` over GF(2^8) with reduction polynomial x^8+x^4+x^3+x^2+1. -/
def theta (a : Grid) : Grid := grid 8 8 fun i j => xorSum 8 fun k => gmul 0x11D (c.getD ((j + 8 - k) % 8) 0) (cell a i k)
/-- Key addition σ[k]. -/
def sigma (k a : Grid) : Grid := gridXor 8 8 a k
/-- Round function ρ[k]. -/
def rho (k a : Grid) : Grid := sigma k (theta (pi (gamma a)))

/-- Round constant `c^r`, `r ≥ 1`. -/
def rc (r : Nat) : Grid := grid 8 8 fun i j => if i = 0 then S (BitVec.ofNat 8 (8 * (r - 1) + j)) else 0

/-- Key schedule: `K^0 = K`, `K^r = ρ[c^r](K^{r-1})`. -/
def key (K : Grid) : Nat → Grid
  | 0 => K
  | r + 1 => rho (rc (r + 1)) (key K r)

/-- The first `r` rounds of the block cipher `W[K]`. -/
def rounds (K : Grid) (m : Grid) : Nat → Grid
  | 0 => sigma (key K 0) m
  | r + 1 => rho (key K (r + 1)) (rounds K m r)

/-- `W[K]`: ten rounds. -/
def W (K m : Grid) : Grid := rounds K m 10

/-- Miyaguchi–Preneel step. -/
def compress (H : Grid) (block : Bytes) : Grid :=
  let m := gridOf 8 8 block
  gridXor 8 8 (gridXor 8 8 (W H m) H) m

/-- Padding: a one bit, zeros to an odd multiple of 256 bits, 256-bit big-endian bit length. -/
def pad (m : Bytes) : Bytes := mdPad 64 0x80 (beBytes 32 (8 * m.length)) m

/-- Whirlpool. -/
def whirlpool (m : Bytes) : Bytes :=
  ((chunks 64 (pad m)).foldl compress (grid 8 8 fun _ _ => 0)).flatten

end Hashes.Spec.Whirlpool
