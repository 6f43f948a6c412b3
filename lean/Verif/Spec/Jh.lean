import Verif.Base.Bytes
/- JH (Hongjun Wu, "The Hash Function JH", 2011), reference definition with 4-bit elements. Independent of the model. Bits are
numbered from the most significant bit of the first byte, as in the document. -/
namespace Hashes.Spec.Jh

abbrev Nib := BitVec 4

/-- The nibble with bits `b0` (most significant) … `b3`. -/
def nib (b : Nat → Bool) : Nib := BitVec.ofBool (b 0) ++ BitVec.ofBool (b 1) ++ BitVec.ofBool (b 2) ++ BitVec.ofBool (b 3)

/-- The byte with bits `b 0` (most significant) … `b 7`. -/
def byte (b : Nat → Bool) : Byte := nib b ++ nib (fun i => b (i + 4))

/-- The S-boxes `S_0` and `S_1`. -/
def S (c : Bool) (x : Nib) : Nib :=
  (if c then ([3, 12, 6, 13, 5, 7, 1, 9, 15, 2, 0, 4, 11, 10, 14, 8] : List Nib)
   else [9, 0, 4, 11, 13, 12, 3, 15, 1, 10, 2, 6, 7, 5, 8, 14]).getD x.toNat 0

/-- Multiplication by 2 in GF(2)[x]/(x^4 + x + 1). -/
def mul2 (x : Nib) : Nib := (x <<< 1) ^^^ (if x.msb then 3 else 0)

/-- The linear transformation: `(C, D)` with `D = B ⊕ 2 A`, `C = A ⊕ 2 D`. -/
def L (A B : Nib) : Nib × Nib := (A ^^^ mul2 (B ^^^ mul2 A), B ^^^ mul2 A)

/-! ### The permutation `P_d = φ_d ∘ P'_d ∘ π_d` on `2^d` elements: position `i` of the result takes element … -/

def piSrc (i : Nat) : Nat := if i % 4 = 2 then i + 1 else if i % 4 = 3 then i - 1 else i
def pSrc (n i : Nat) : Nat := if i < n / 2 then 2 * i else 2 * (i - n / 2) + 1
def phiSrc (n i : Nat) : Nat := if i < n / 2 then i else if i % 2 = 0 then i + 1 else i - 1
def permSrc (n i : Nat) : Nat := piSrc (pSrc n (phiSrc n i))

/-- Round function `R_d` on `n = 2^d` elements with one constant bit per element. -/
def R (n : Nat) (c : Nat → Bool) (q : List Nib) : List Nib :=
  let v := (List.range n).map fun i => S (c i) (q.getD i 0)
  let w := (List.range n).map fun i =>
    if i % 2 = 0 then (L (v.getD i 0) (v.getD (i + 1) 0)).1 else (L (v.getD (i - 1) 0) (v.getD i 0)).2
  (List.range n).map fun i => w.getD (permSrc n i) 0

/-- `C_0 = ⌊(√2 - 1) 2^256⌋` as 64 nibbles, most significant first. -/
def C0 : List Nib := (List.range 64).map fun i =>
  BitVec.ofNat 4 (0x6a09e667f3bcc908b2fb1366ea957d3e3adec17512775099da2f590b0667322a / 16 ^ (63 - i))

/-- `C_r = R_6(C_{r-1}, 0)`. -/
def C : Nat → List Nib
  | 0 => C0
  | r + 1 => R 64 (fun _ => false) (C r)

/-- Bit `i` of a 256-bit constant. -/
def cbit (c : List Nib) (i : Nat) : Bool := (c.getD (i / 4) 0).getLsbD (3 - i % 4)

/-- Bit `j` of a byte string. -/
def bit (h : Bytes) (j : Nat) : Bool := (h.getD (j / 8) 0).getLsbD (7 - j % 8)

/-- Grouping: `q_{2i+b} = A^{i+128b} ‖ A^{i+256+128b} ‖ A^{i+512+128b} ‖ A^{i+768+128b}`. -/
def group (h : Bytes) : List Nib := (List.range 256).map fun e => nib fun k => bit h (e / 2 + 128 * (e % 2) + 256 * k)

/-- De-grouping: bit `j` with `j = i + 128 b + 256 k` is bit `k` of element `2 i + b`. -/
def degroupBit (q : List Nib) (j : Nat) : Bool := (q.getD (2 * (j % 128) + j / 128 % 2) 0).getLsbD (3 - j / 256)
def degroup (q : List Nib) : Bytes := (List.range 128).map fun t => byte fun i => degroupBit q (8 * t + i)

/-- The bijective function `E_8`: 42 rounds. -/
def E8 (h : Bytes) : Bytes := degroup ((List.range 42).foldl (fun q r => R 256 (cbit (C r)) q) (group h))

/-- Byte-wise exclusive or. -/
def xor (a b : Bytes) : Bytes := List.zipWith (· ^^^ ·) a b

/-- The compression function `F_8`. -/
def F8 (h m : Bytes) : Bytes :=
  let b := E8 (xor (h.take 64) m ++ h.drop 64)
  b.take 64 ++ xor (b.drop 64) m

/-- Initial value for `n` output bytes: the 16-bit digest size in bits, followed by zeros, compressed with the zero block. -/
def iv (n : Nat) : Bytes := F8 (beBytes 2 (8 * n) ++ List.replicate 126 0) (List.replicate 64 0)

/-- Padding: bit 1, then `384 - 1 + (-l mod 512)` zero bits, then the 128-bit length `l`. -/
def pad (m : Bytes) : Bytes :=
  m ++ [0x80] ++ List.replicate (47 + (64 - m.length % 64) % 64) 0 ++ beBytes 16 (8 * m.length)

/-- JH with `n` output bytes. -/
def hash (n : Nat) (m : Bytes) : Bytes := ((chunks 64 (pad m)).foldl F8 (iv n)).drop (128 - n)

end Hashes.Spec.Jh
