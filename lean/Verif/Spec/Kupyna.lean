import Verif.Spec.Grid
import Verif.Spec.Padding
/- Kupyna, written from DSTU 7564:2014 (Oliynykov et al., "A New Standard of Ukraine: The Kupyna Hash Function"). Independent of
the model, except that the four S-boxes (tables without an algebraic definition) are a parameter.
Lines of a grid are columns of the state matrix: `cell a j i` is the byte in row `i`, column `j`. -/
namespace Hashes.Spec.Kupyna

/-- Parameters: columns, rounds, shift of row 7, exponent of the initial value (a power of two). -/
structure Params where
  cols : Nat
  rounds : Nat
  last : Nat
  ivExp : Nat

/-- Internal state of 512 bits; `IV = 1 << 510`. -/
def p512 : Params := ⟨8, 10, 7, 510⟩
/-- Internal state of 1024 bits; `IV = 1 << 1023`. -/
def p1024 : Params := ⟨16, 14, 11, 1023⟩

variable (p : Params) (π : Nat → Byte → Byte)

/-- `κ_v`: adds `16 j ⊕ v` to the first byte of column `j` modulo 2. -/
def kappa (v : Nat) (a : Grid) : Grid :=
  grid p.cols 8 fun j i => cell a j i ^^^ (if i = 0 then BitVec.ofNat 8 (16 * j) ^^^ BitVec.ofNat 8 v else 0)

/-- The constant column of `η_v`. -/
def zeta (v j : Nat) : Bytes :=
  [0xF3, 0xF0, 0xF0, 0xF0, 0xF0, 0xF0, 0xF0, BitVec.ofNat 8 (16 * (p.cols - 1 - j)) ^^^ BitVec.ofNat 8 v]

/-- `η_v`: adds the constant to column `j` modulo `2^64`, columns read as little-endian numbers. -/
def eta (v : Nat) (a : Grid) : Grid :=
  (List.range p.cols).map fun j => leBytes 8 (ofLE (a.getD j []) + ofLE (zeta p v j))

/-- `π'`: S-box `π_{i mod 4}` on row `i`. -/
def sub (a : Grid) : Grid := grid p.cols 8 fun j i => π (i % 4) (cell a j i)

/-- Rotation distance of row `i`. -/
def dist (i : Nat) : Nat := if i = 7 then p.last else i

/-- `τ`: row `i` is rotated right by `dist i`. -/
def tau (a : Grid) : Grid := grid p.cols 8 fun j i => cell a ((j + p.cols - dist p i) % p.cols) i

/-- First row of the MDS matrix. -/
def v : List Byte := [0x01, 0x01, 0x05, 0x01, 0x08, 0x06, 0x07, 0x04]

/-- `ψ`: each column is multiplied by the circulant of `v` over GF(2^8), polynomial 0x11D. -/
def psi (a : Grid) : Grid :=
  grid p.cols 8 fun j i => xorSum 8 fun b => gmul 0x11D (cell a j b) (v.getD ((b + 8 - i) % 8) 0)

/-- `T⊕`. -/
def Txor (a : Grid) : Grid := (List.range p.rounds).foldl (fun a r => psi p (tau p (sub p π (kappa p r a)))) a
/-- `T+`. -/
def Tplus (a : Grid) : Grid := (List.range p.rounds).foldl (fun a r => psi p (tau p (sub p π (eta p r a)))) a

/-- Davies–Meyer-like step `h ↦ T⊕(h ⊕ m) ⊕ T+(m) ⊕ h`. -/
def step (h : Grid) (block : Bytes) : Grid :=
  let m := gridOf p.cols 8 block
  gridXor p.cols 8 (gridXor p.cols 8 (Txor p π (gridXor p.cols 8 h m)) (Tplus p π m)) h

/-- Padding: one bit, zeros, the bit length as a 96-bit little-endian number. -/
def pad (m : Bytes) : Bytes := mdPad (8 * p.cols) 0x80 (leBytes 12 (8 * m.length)) m

/-- Initial value. -/
def iv : Grid := gridOf p.cols 8 (beBytes (8 * p.cols) (2 ^ p.ivExp))

/-- Kupyna with `n` output bytes: the last `n` bytes of `T⊕(h) ⊕ h`. -/
def hash (n : Nat) (m : Bytes) : Bytes :=
  let x := (chunks (8 * p.cols) (pad p m)).foldl (step p π) (iv p)
  let out := (gridXor p.cols 8 (Txor p π x) x).flatten
  out.drop (out.length - n)

end Hashes.Spec.Kupyna
