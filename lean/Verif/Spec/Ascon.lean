import Verif.Base.Vec
import Verif.Spec.Padding
/-
NIST SP 800-232: the Ascon permutation, Ascon-Hash256 and Ascon-XOF128. The state is five 64-bit words; octet strings are read
and written little-endian; the rate is the first word.
-/
namespace Hashes.Spec.Ascon

abbrev St := V5 W64

/-- Rotation right. -/
def ror (x : W64) (n : Nat) : W64 := x.rotateRight n

/-- One round with constant `c`: constant addition, substitution layer (algebraic normal form of the S-box), linear layer. -/
def round (s : St) (c : W64) : St :=
  let x0 := s.x0; let x1 := s.x1; let x2 := s.x2 ^^^ c; let x3 := s.x3; let x4 := s.x4
  -- 5-bit S-box, algebraic normal form
  let y0 := x4 &&& x1 ^^^ x3 ^^^ x2 &&& x1 ^^^ x2 ^^^ x1 &&& x0 ^^^ x1 ^^^ x0
  let y1 := x4 ^^^ x3 &&& x2 ^^^ x3 &&& x1 ^^^ x3 ^^^ x2 &&& x1 ^^^ x2 ^^^ x1 ^^^ x0
  let y2 := x4 &&& x3 ^^^ x4 ^^^ x2 ^^^ x1 ^^^ 0xffffffffffffffff
  let y3 := x4 &&& x0 ^^^ x4 ^^^ x3 &&& x0 ^^^ x3 ^^^ x2 ^^^ x1 ^^^ x0
  let y4 := x4 &&& x1 ^^^ x4 ^^^ x3 ^^^ x1 &&& x0 ^^^ x1
  ⟨y0 ^^^ ror y0 19 ^^^ ror y0 28, y1 ^^^ ror y1 61 ^^^ ror y1 39, y2 ^^^ ror y2 1 ^^^ ror y2 6,
    y3 ^^^ ror y3 10 ^^^ ror y3 17, y4 ^^^ ror y4 7 ^^^ ror y4 41⟩

/-- Ascon-p[12]; the constant of round `i` is `(15 - i) · 16 + i`. -/
def p12 (s : St) : St := (List.range 12).foldl (fun s i => round s (BitVec.ofNat 64 (16 * (15 - i) + i))) s

/-- Initial values: algorithm identifier word, zeros, permuted. -/
def ivHash : St := p12 ⟨0x0000080100cc0002, 0, 0, 0, 0⟩
def ivXof : St := p12 ⟨0x0000080000cc0003, 0, 0, 0, 0⟩

/-- Absorb all blocks of `m ‖ 1 ‖ 0…0`. -/
def absorb (P : St → St) (iv : St) (m : Bytes) : St :=
  (chunks 8 (mdPad 8 0x01 [] m)).foldl (fun s b => P { s with x0 := s.x0 ^^^ BitVec.ofNat 64 (ofLE b) }) iv

/-- The first `k` squeezed blocks. -/
def squeeze (P : St → St) (k : Nat) (s : St) : Bytes :=
  (List.range k).flatMap fun i => leBytes 8 (Nat.repeat P i s).x0.toNat

/-- `n` output bytes. -/
def sponge (P : St → St) (iv : St) (m : Bytes) (n : Nat) : Bytes := (squeeze P ((n + 7) / 8) (absorb P iv m)).take n

end Hashes.Spec.Ascon
