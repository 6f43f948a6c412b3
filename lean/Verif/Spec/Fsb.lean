import Verif.Spec.Padding
import Verif.Spec.Whirlpool
/-
FSB ("Fast Syndrome-Based hash", Augot, Finiasz, Gaborit, Manuel, Sendrier, SHA-3 submission 2008), at the level of bits.
Bits of a byte string are numbered from the most significant bit of the first byte.
-/
namespace Hashes.Spec.Fsb

structure Params where
  n : Nat
  w : Nat
  r : Nat
  p : Nat
  s : Nat
  out : Nat

/-- Table of the submission: (n, w, r, p, s) for the five digest sizes. -/
def fsb160 : Params := ⟨5 * 2 ^ 18, 80, 640, 653, 1120, 20⟩
def fsb224 : Params := ⟨7 * 2 ^ 18, 112, 896, 907, 1568, 28⟩
def fsb256 : Params := ⟨2 ^ 21, 128, 1024, 1061, 1792, 32⟩
def fsb384 : Params := ⟨23 * 2 ^ 16, 184, 1472, 1483, 2392, 48⟩
def fsb512 : Params := ⟨31 * 2 ^ 16, 248, 1984, 1987, 3224, 64⟩

/-- Bit `j` of a byte string. -/
def bit (l : Bytes) (j : Nat) : Bool := (l.getD (j / 8) 0).getLsbD (7 - j % 8)

/-- Number with the given bits, most significant first. -/
def num (l : List Bool) : Nat := l.foldl (fun a b => 2 * a + b.toNat) 0

/-- Bytes with the given bits. -/
def pack (k : Nat) (f : Nat → Bool) : Bytes := (List.range k).map fun i => BitVec.ofNat 8 (num ((List.range 8).map fun t => f (8 * i + t)))

variable (P : Params)

/-- Bits from one index: 8 of the chaining value, `a` of the message. -/
def Params.a : Nat := (P.s - P.r) / P.w

/-- Index `W_i = i · n/w + IV_i + M_i · 2^(r/w)`: `IV_i`, `M_i` are the i-th groups of r/w and (s−r)/w bits. -/
def W (h m : Bytes) (i : Nat) : Nat :=
  i * (P.n / P.w) + num ((List.range (P.r / P.w)).map fun t => bit h (i * (P.r / P.w) + t)) +
    num ((List.range P.a).map fun t => bit m (i * P.a + t)) * 2 ^ (P.r / P.w)

/-- Bit `j` of column `c` of the matrix: vector number `c / r` of the table (`p` bits, stored in ⌈p/8⌉ bytes), rotated by `c % r`
positions, truncated to `r` bits. -/
def column (PI : Bytes) (c j : Nat) : Bool :=
  bit (PI.drop (c / P.r * (P.p / 8 + 1))) ((j + P.p - c % P.r) % P.p)

/-- Compression: the sum of the `w` chosen columns. -/
def compress (PI h m : Bytes) : Bytes :=
  pack (P.r / 8) fun j => (List.range P.w).foldl (fun b i => b ^^ column P PI (W P h m i) j) false

/-- FSB with a `(s − r)`-bit message block: Merkle–Damgård with 64-bit length, then truncated Whirlpool. -/
def hash (PI m : Bytes) : Bytes :=
  let bs := (P.s - P.r) / 8
  let h := (chunks bs (mdPad bs 0x80 (beBytes 8 (8 * m.length)) m)).foldl (compress P PI) (List.replicate (P.r / 8) 0)
  (Whirlpool.whirlpool h).take P.out

end Hashes.Spec.Fsb
