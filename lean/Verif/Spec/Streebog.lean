import Verif.Spec.Grid
/- GOST R 34.11-2012 (Streebog), written from RFC 6986. Independent of the model; the iteration constants `C_1 … C_12` are a
parameter. A 512-bit vector is a byte string of 64 bytes, least significant byte first, or the grid of its eight 64-bit
subvectors (`cell a i j`: byte `j` of subvector `i`, both least significant first).
The substitution `π` and the rows of the matrix `A` are not copied from the standard but given by their published algebraic
descriptions: Perrin, "Partitions in the S-Box of Streebog and Kuznyechik" (2019), and Kazymyrov & Kazymyrova, "Algebraic
Aspects of the Russian Hash Standard GOST R 34.11-2012" (2013). -/
namespace Hashes.Spec.Streebog

/-! ### The substitution π (TKlog form) -/

/-- Multiplication by `α = x` in GF(2)[x]/(x^8+x^4+x^3+x^2+1). -/
def mulAlpha (a : Nat) : Nat := if 128 ≤ a then Nat.xor (2 * a) 0x11D else 2 * a

/-- `α^0, …, α^(n-1)`. -/
def powers : Nat → Nat → List Nat
  | 0, _ => []
  | n + 1, a => a :: powers n (mulAlpha a)

/-- The affine map `κ : GF(2)^4 → GF(2)^8`. -/
def kappa (x : Nat) : Nat :=
  Nat.xor (Nat.xor (Nat.mul (bitOf x 0) 0x12) (Nat.mul (bitOf x 1) 0x26))
    (Nat.xor (Nat.xor (Nat.mul (bitOf x 2) 0x24) (Nat.mul (bitOf x 3) 0x30)) 0xFC)

/-- The permutation `s` of the 15 exponents. -/
def s : List Nat := [0, 12, 9, 8, 7, 4, 14, 6, 5, 10, 2, 11, 1, 3, 13]

/-- `π(0) = κ(0)`, `π(α^(17 j)) = κ(16 - j)` for `1 ≤ j ≤ 15`, `π(α^(i + 17 j)) = κ(16 - i) ⊕ α^(17 s(j))` for `i > 0`. -/
def pi (x : Nat) : Nat :=
  if x = 0 then kappa 0 else
  let e := (powers 255 1).idxOf x
  let i := e % 17
  let j := e / 17
  if i = 0 then kappa (16 - (if j = 0 then 15 else j))
  else Nat.xor (kappa (16 - i)) ((powers 255 1).getD (17 * s.getD j 0) 0)

/-! ### The linear map -/

/-- The 8×8 matrix over GF(2)[x]/(x^8+x^6+x^5+x^4+1). -/
def M : List (List Byte) := [
  [0x71, 0x05, 0x09, 0xB9, 0x61, 0xA2, 0x27, 0x0E],
  [0x04, 0x88, 0x5B, 0xB2, 0xE4, 0x36, 0x5F, 0x65],
  [0x5F, 0xCB, 0xAD, 0x0F, 0xBA, 0x2C, 0x04, 0xA5],
  [0xE5, 0x01, 0x54, 0xBA, 0x0F, 0x11, 0x2A, 0x76],
  [0xD4, 0x81, 0x1C, 0xFA, 0x39, 0x5E, 0x15, 0x24],
  [0x05, 0x71, 0x5E, 0x66, 0x17, 0x1C, 0xD0, 0x02],
  [0x2D, 0xF1, 0xE7, 0x28, 0x55, 0xA0, 0x4C, 0x9A],
  [0x0E, 0x02, 0xF6, 0x8A, 0x15, 0x9D, 0x39, 0x71]]

/-- Row `r` of the 64×64 bit matrix `A` of the standard (row 0 belongs to the most significant bit of the argument), as its
little-endian bytes: the image of a single bit, with field elements written in the bit-reversed basis. -/
def row (r : Nat) : Bytes :=
  (List.range 8).map fun u => BitVec.reverse (gmul 0x171 (cell M (7 - u) (r / 8)) (BitVec.reverse (BitVec.twoPow 8 (7 - r % 8))))

/-- `l(b) = ⊕ b_(63-r) A_r`: byte `u` of the result for the vector with little-endian bytes `b`. -/
def l (b : Bytes) (u : Nat) : Byte :=
  xorSum 64 fun t => if (b.getD (t / 8) 0).getLsbD (t % 8) then (row (63 - t)).getD u 0 else 0

/-! ### The hash -/

/-- `X[k](a)`. -/
def X (k a : Grid) : Grid := gridXor 8 8 k a
/-- `S`. -/
def S (a : Grid) : Grid := grid 8 8 fun i j => BitVec.ofNat 8 (pi (cell a i j).toNat)
/-- `P`: byte `8 i + j` goes to `8 j + i`. -/
def P (a : Grid) : Grid := grid 8 8 fun i j => cell a j i
/-- `L`. -/
def L (a : Grid) : Grid := grid 8 8 fun i u => l (a.getD i []) u

/-- `LPS`. -/
def LPS (a : Grid) : Grid := L (P (S a))

variable (C : List Grid)

/-- `E(K, m) = X[K_13] LPSX[K_12] … LPSX[K_1](m)`, `K_(i+1) = LPS(K_i ⊕ C_i)`. -/
def E : List Grid → Grid → Grid → Grid
  | [], K, m => X K m
  | c :: C, K, m => E C (LPS (X K c)) (LPS (X K m))

/-- `g_N(h, m) = E(LPS(h ⊕ N), m) ⊕ h ⊕ m`. -/
def g (N h m : Grid) : Grid := X (X (E C (LPS (X h N)) m) h) m

/-- A number as 512-bit vector. -/
def vec (x : Nat) : Grid := gridOf 8 8 (leBytes 64 x)

/-- State of the iteration: `h`, `N`, `Σ`. -/
abbrev St := Grid × Nat × Nat

/-- One block carrying `bits` bits of message. -/
def step (bits : Nat) (st : St) (block : Bytes) : St :=
  (g C (vec st.2.1) st.1 (gridOf 8 8 block), (st.2.1 + bits) % 2 ^ 512, (st.2.2 + ofLE block) % 2 ^ 512)

/-- Initial vector for `n` output bytes. -/
def iv (n : Nat) : Grid := grid 8 8 fun _ _ => if n = 64 then 0 else 1

/-- Streebog with `n = 32` or `n = 64` output bytes (the most significant ones). -/
def hash (n : Nat) (m : Bytes) : Bytes :=
  let k := m.length / 64
  let st := (blocks 64 k m).foldl (step C 512) (iv n, 0, 0)
  let rest := m.drop (64 * k)
  let st := step C (8 * rest.length) st (rest ++ [1] ++ List.replicate (63 - rest.length) 0)
  let h := g C (vec 0) st.1 (vec st.2.1)
  let h := g C (vec 0) h (vec st.2.2)
  h.flatten.drop (64 - n)

end Hashes.Spec.Streebog
