import Verif.Base.Vec
import Verif.Spec.Padding
/- RFC 1319 (MD2), RFC 1320 (MD4), RFC 1321 (MD5), written from the RFCs; independent of the model. -/
namespace Hashes.Spec

/-! ### MD5 (RFC 1321) -/
namespace Md5

/-- RFC 1321 §3.4 auxiliary functions. -/
def F (x y z : W32) : W32 := (x &&& y) ||| (~~~x &&& z)
def G (x y z : W32) : W32 := (x &&& z) ||| (y &&& ~~~z)
def H (x y z : W32) : W32 := x ^^^ y ^^^ z
def I (x y z : W32) : W32 := y ^^^ (x ||| ~~~z)

/-- The first `n` terms of the sine series at `x`, scaled by `2^256`: `(value, next term)`; each term is
`± x^(2k+1) / (2k+1)!` rounded toward zero. -/
def sinSeries (x : Nat) : Nat → Int × Int
  | 0 => (0, (x : Int) * 2 ^ 256)
  | k + 1 =>
    let r := sinSeries x k
    (r.1 + r.2, -(r.2 * x * x).tdiv ((2 * k + 2) * (2 * k + 3)))

/-- §3.4: `T[i]` is the integer part of `4294967296 * |sin i|`, `i` in radians (sine by its power series,
120 terms, 256 fractional bits). -/
def T (i : Nat) : W32 := BitVec.ofNat 32 ((sinSeries i 120).1.natAbs / 2 ^ 224)

def Ts : List W32 := (List.range 64).map fun i => T (i + 1)

/-- Message word used in step `i`. -/
def index (i : Nat) : Nat :=
  if i < 16 then i else if i < 32 then (5 * i + 1) % 16 else if i < 48 then (3 * i + 5) % 16 else (7 * i) % 16

/-- Rotation amount of step `i`. -/
def shift (i : Nat) : Nat :=
  if i < 16 then [7, 12, 17, 22].getD (i % 4) 0 else if i < 32 then [5, 9, 14, 20].getD (i % 4) 0
  else if i < 48 then [4, 11, 16, 23].getD (i % 4) 0 else [6, 10, 15, 21].getD (i % 4) 0

/-- Boolean function of step `i`. -/
def func (i : Nat) : W32 → W32 → W32 → W32 := if i < 16 then F else if i < 32 then G else if i < 48 then H else I

/-- One step: `a = b + ((a + f(b,c,d) + X[k] + T[i]) <<< s)`, then the registers rotate. -/
def step (X : Nat → W32) (i : Nat) (s : V4 W32) : V4 W32 :=
  ⟨s.x3, s.x1 + (s.x0 + func i s.x1 s.x2 s.x3 + X (index i) + Ts.getD i 0).rotateLeft (shift i), s.x1, s.x2⟩

/-- Steps `0 .. n-1`. -/
def steps (X : Nat → W32) : Nat → V4 W32 → V4 W32
  | 0, s => s
  | n + 1, s => step X n (steps X n s)

/-- §3.4: one block. -/
def compress (s : V4 W32) (block : Bytes) : V4 W32 := s.zip (· + ·) (steps (wordLE 32 block) 64 s)

/-- §3.1, §3.2 (length modulo 2^64, little endian). -/
def pad (m : Bytes) : Bytes := mdPad 64 0x80 (leBytes 8 (8 * m.length)) m

/-- §3.3 -/
def IV : V4 W32 := ⟨0x67452301, 0xefcdab89, 0x98badcfe, 0x10325476⟩

/-- MD5. -/
def md5 (m : Bytes) : Bytes := bytesOfWordsLE ((chunks 64 (pad m)).foldl compress IV).toList

end Md5

/-! ### MD4 (RFC 1320) -/
namespace Md4

def F (x y z : W32) : W32 := (x &&& y) ||| (~~~x &&& z)
def G (x y z : W32) : W32 := (x &&& y) ||| (x &&& z) ||| (y &&& z)
def H (x y z : W32) : W32 := x ^^^ y ^^^ z

/-- §3.4: order of the message words. -/
def index : List Nat := [
  0, 1, 2, 3, 4, 5, 6, 7, 8, 9, 10, 11, 12, 13, 14, 15,
  0, 4, 8, 12, 1, 5, 9, 13, 2, 6, 10, 14, 3, 7, 11, 15,
  0, 8, 4, 12, 2, 10, 6, 14, 1, 9, 5, 13, 3, 11, 7, 15]

def shift (i : Nat) : Nat :=
  if i < 16 then [3, 7, 11, 19].getD (i % 4) 0 else if i < 32 then [3, 5, 9, 13].getD (i % 4) 0
  else [3, 9, 11, 15].getD (i % 4) 0

def func (i : Nat) : W32 → W32 → W32 → W32 := if i < 16 then F else if i < 32 then G else H

/-- Additive constants: square roots of 2 and 3 (footnote of §3.4). -/
def const (i : Nat) : W32 := if i < 16 then 0 else if i < 32 then 0x5a827999 else 0x6ed9eba1

/-- One step: `a = (a + f(b,c,d) + X[k] + const) <<< s`, then the registers rotate. -/
def step (X : Nat → W32) (i : Nat) (s : V4 W32) : V4 W32 :=
  ⟨s.x3, (s.x0 + func i s.x1 s.x2 s.x3 + X (index.getD i 0) + const i).rotateLeft (shift i), s.x1, s.x2⟩

def steps (X : Nat → W32) : Nat → V4 W32 → V4 W32
  | 0, s => s
  | n + 1, s => step X n (steps X n s)

def compress (s : V4 W32) (block : Bytes) : V4 W32 := s.zip (· + ·) (steps (wordLE 32 block) 48 s)

def pad (m : Bytes) : Bytes := mdPad 64 0x80 (leBytes 8 (8 * m.length)) m

def IV : V4 W32 := ⟨0x67452301, 0xefcdab89, 0x98badcfe, 0x10325476⟩

/-- MD4. -/
def md4 (m : Bytes) : Bytes := bytesOfWordsLE ((chunks 64 (pad m)).foldl compress IV).toList

end Md4

/-! ### MD2 (RFC 1319) -/
namespace Md2

/-- Appendix A: the 256-byte permutation. -/
def PI_SUBST : List Byte := [
  41, 46, 67, 201, 162, 216, 124, 1, 61, 54, 84, 161, 236, 240, 6, 19,
  98, 167, 5, 243, 192, 199, 115, 140, 152, 147, 43, 217, 188, 76, 130, 202,
  30, 155, 87, 60, 253, 212, 224, 22, 103, 66, 111, 24, 138, 23, 229, 18,
  190, 78, 196, 214, 218, 158, 222, 73, 160, 251, 245, 142, 187, 47, 238, 122,
  169, 104, 121, 145, 21, 178, 7, 63, 148, 194, 16, 137, 11, 34, 95, 33,
  128, 127, 93, 154, 90, 144, 50, 39, 53, 62, 204, 231, 191, 247, 151, 3,
  255, 25, 48, 179, 72, 165, 181, 209, 215, 94, 146, 42, 172, 86, 170, 198,
  79, 184, 56, 210, 150, 164, 125, 182, 118, 252, 107, 226, 156, 116, 4, 241,
  69, 157, 112, 89, 100, 113, 135, 32, 134, 91, 207, 101, 230, 45, 168, 2,
  27, 96, 37, 173, 174, 176, 185, 246, 28, 70, 97, 105, 52, 64, 126, 15,
  85, 71, 163, 35, 221, 81, 175, 58, 195, 92, 249, 206, 186, 197, 234, 38,
  44, 83, 13, 110, 133, 40, 132, 9, 211, 223, 205, 244, 65, 129, 77, 82,
  106, 220, 55, 200, 108, 193, 171, 250, 36, 225, 123, 8, 12, 189, 177, 74,
  120, 136, 149, 139, 227, 99, 232, 109, 233, 203, 213, 254, 59, 0, 29, 57,
  242, 239, 183, 14, 102, 88, 208, 228, 166, 119, 114, 248, 235, 117, 75, 10,
  49, 68, 80, 180, 143, 237, 31, 26, 219, 153, 141, 51, 159, 17, 131, 20]

/-- §3.1: append `i` bytes of value `i`, `1 ≤ i ≤ 16`. -/
def pad (m : Bytes) : Bytes :=
  let i := 16 - m.length % 16
  m ++ List.replicate i (BitVec.ofNat 8 i)

/-- §3.2 (with the published erratum: `C[j] = C[j] xor S[c xor L]`), one 16-byte block; returns the new
checksum given the old one and `L`. -/
def checksumBlock : Bytes → Bytes → Byte → Bytes
  | c :: C, b :: B, L => let c' := c ^^^ PI_SUBST.getD (b ^^^ L).toNat 0; c' :: checksumBlock C B c'
  | _, _, _ => []

/-- §3.2: checksum of the whole padded message; `L` is carried over as the last checksum byte. -/
def checksum (blocks : List Bytes) : Bytes :=
  blocks.foldl (fun C B => checksumBlock C B (C.getLastD 0)) (List.replicate 16 0)

/-- §3.4: one pass over the 48-byte buffer, threading `t`. -/
def pass (x : Bytes) (t : Byte) : Bytes × Byte :=
  x.foldl (fun (acc : Bytes × Byte) b => let b' := b ^^^ PI_SUBST.getD acc.2.toNat 0; (acc.1 ++ [b'], b')) ([], t)

/-- §3.4: 18 passes. -/
def digestBlock (X : Bytes) (block : Bytes) : Bytes :=
  let X := X.take 16 ++ block ++ List.zipWith (· ^^^ ·) block (X.take 16)
  ((List.range 18).foldl (fun (a : Bytes × Byte) j => let p := pass a.1 a.2; (p.1, p.2 + BitVec.ofNat 8 j)) (X, 0)).1

/-- MD2: pad, append the checksum of the padded message, digest everything. -/
def md2 (m : Bytes) : Bytes :=
  let M := chunks 16 (pad m)
  ((M ++ [checksum M]).foldl digestBlock (List.replicate 48 0)).take 16

end Md2
end Hashes.Spec
