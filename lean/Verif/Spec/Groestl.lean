import Verif.Spec.Aes
import Verif.Spec.Padding
/- Groestl, written from "Grøstl – a SHA-3 candidate" (round 3 tweak, 2011). Independent of the model.
Lines of a grid are columns of the state matrix: `cell a j i` is the byte in row `i`, column `j`. -/
namespace Hashes.Spec.Groestl

/-- Parameters: number of columns, rounds, shift vectors of `P` and `Q`. -/
structure Params where
  cols : Nat
  rounds : Nat
  shiftP : List Nat
  shiftQ : List Nat

/-- `P_512`, `Q_512` (§3.4). -/
def p512 : Params := ⟨8, 10, [0, 1, 2, 3, 4, 5, 6, 7], [1, 3, 5, 7, 0, 2, 4, 6]⟩
/-- `P_1024`, `Q_1024`. -/
def p1024 : Params := ⟨16, 14, [0, 1, 2, 3, 4, 5, 6, 11], [1, 3, 5, 11, 0, 2, 4, 6]⟩

/-- AddRoundConstant for `P`, round `r`: column `j` of row 0 gets `16 j ⊕ r`. -/
def addP (p : Params) (r : Nat) (a : Grid) : Grid :=
  grid p.cols 8 fun j i => cell a j i ^^^ (if i = 0 then BitVec.ofNat 8 (16 * j) ^^^ BitVec.ofNat 8 r else 0)

/-- AddRoundConstant for `Q`, round `r`: all bytes are complemented; row 7 also gets `16 j ⊕ r`. -/
def addQ (p : Params) (r : Nat) (a : Grid) : Grid :=
  grid p.cols 8 fun j i =>
    cell a j i ^^^ (if i = 7 then 0xff ^^^ BitVec.ofNat 8 (16 * j) ^^^ BitVec.ofNat 8 r else 0xff)

/-- SubBytes. -/
def subBytes (p : Params) (a : Grid) : Grid := grid p.cols 8 fun j i => Aes.sbox (cell a j i)

/-- ShiftBytes: row `i` moves left by `σ i` positions. -/
def shiftBytes (p : Params) (σ : List Nat) (a : Grid) : Grid :=
  grid p.cols 8 fun j i => cell a ((j + σ.getD i 0) % p.cols) i

/-- First row of the circulant matrix `B`. -/
def B : List Byte := [0x02, 0x02, 0x03, 0x04, 0x05, 0x03, 0x05, 0x07]

/-- MixBytes: every column is multiplied by `B = circ(02,02,03,04,05,03,05,07)`. -/
def mixBytes (p : Params) (a : Grid) : Grid :=
  grid p.cols 8 fun j i => xorSum 8 fun k => gmul 0x11B (B.getD ((k + 8 - i) % 8) 0) (cell a j k)

/-- Permutation `P`. -/
def permP (p : Params) (a : Grid) : Grid :=
  (List.range p.rounds).foldl (fun a r => mixBytes p (shiftBytes p p.shiftP (subBytes p (addP p r a)))) a

/-- Permutation `Q`. -/
def permQ (p : Params) (a : Grid) : Grid :=
  (List.range p.rounds).foldl (fun a r => mixBytes p (shiftBytes p p.shiftQ (subBytes p (addQ p r a)))) a

/-- `f(h, m) = P(h ⊕ m) ⊕ Q(m) ⊕ h`. -/
def f (p : Params) (h : Grid) (block : Bytes) : Grid :=
  let m := gridOf p.cols 8 block
  gridXor p.cols 8 (gridXor p.cols 8 (permP p (gridXor p.cols 8 h m)) (permQ p m)) h

/-- Initial value: the output length in bits as an `ℓ`-bit number, `ℓ = 64 cols`. -/
def iv (p : Params) (n : Nat) : Grid := gridOf p.cols 8 (beBytes (8 * p.cols) (8 * n))

/-- Padding: one bit, zeros, and the number of blocks of the padded message as a 64-bit number. -/
def pad (p : Params) (m : Bytes) : Bytes :=
  let ℓ := 8 * p.cols
  mdPad ℓ 0x80 (beBytes 8 ((m.length + 1 + zeroFill ℓ (m.length + 1 + 8) + 8) / ℓ)) m

/-- Groestl with `n` output bytes: `Ω(x) = trunc_n(P(x) ⊕ x)`, the last `n` bytes. -/
def hash (p : Params) (n : Nat) (m : Bytes) : Bytes :=
  let x := (chunks (8 * p.cols) (pad p m)).foldl (f p) (iv p n)
  let out := (gridXor p.cols 8 (permP p x) x).flatten
  out.drop (out.length - n)

end Hashes.Spec.Groestl
