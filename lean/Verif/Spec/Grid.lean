import Verif.Base.Bytes
/- Byte matrices and multiplication in GF(2^8), used by the specifications of the AES-like hashes. -/
namespace Hashes.Spec

/-- A byte matrix, stored as a list of lines. -/
abbrev Grid := List Bytes

/-- The `n × m` grid with entries `f a b` (line `a`, position `b`). -/
def grid (n m : Nat) (f : Nat → Nat → Byte) : Grid := (List.range n).map fun a => (List.range m).map fun b => f a b

/-- Entry `b` of line `a`. -/
def cell (g : Grid) (a b : Nat) : Byte := (g.getD a []).getD b 0

/-- The `n` lines of `m` bytes of a byte string. -/
def gridOf (n m : Nat) (x : Bytes) : Grid := grid n m fun a b => x.getD (m * a + b) 0

/-- Entry-wise exclusive or. -/
def gridXor (n m : Nat) (x y : Grid) : Grid := grid n m fun a b => cell x a b ^^^ cell y a b

/-- `f 0 ⊕ … ⊕ f (n-1)`. -/
def xorSum (n : Nat) (f : Nat → Byte) : Byte := (List.range n).foldl (fun acc k => acc ^^^ f k) 0

/-- Bit `i` of `x`, as 0 or 1. (`Nat.mod` etc. rather than `%` etc.: fewer unfolding steps for the kernel.) -/
def bitOf (x i : Nat) : Nat := Nat.mod (Nat.shiftRight x i) 2

/-- Carry-less product of polynomials over GF(2), coefficients as bits; `b` of degree below 8. -/
def clmul (a b : Nat) : Nat :=
  [0, 1, 2, 3, 4, 5, 6, 7].foldl (fun r i => Nat.xor r (Nat.mul (bitOf b i) (Nat.shiftLeft a i))) 0

/-- Remainder of a polynomial of degree below 15 modulo `poly` (of degree 8). -/
def clmod (poly x : Nat) : Nat :=
  [6, 5, 4, 3, 2, 1, 0].foldl (fun r i => Nat.xor r (Nat.mul (bitOf r (Nat.add i 8)) (Nat.shiftLeft poly i))) x

/-- Product in GF(2)[x]/(poly), `poly` of degree 8 given with its leading coefficient. -/
def gmul (poly : Nat) (a b : Byte) : Byte := BitVec.ofNat 8 (clmod poly (clmul a.toNat b.toNat))

end Hashes.Spec
