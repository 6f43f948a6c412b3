import Verif.Base.Bytes
/-
STB 34.101.31-2011/2020: the block cipher belt-block, belt-compress (6.3.2) and belt-hash (6.9 of the 2011 edition).
Words of the standard are octet strings; numbers are little-endian.
-/
namespace Hashes.Spec.Belt

/-- Octet-wise exclusive or and complement. -/
def xor (a b : Bytes) : Bytes := List.zipWith (· ^^^ ·) a b
def not (a : Bytes) : Bytes := a.map fun x => ~~~x

/-- belt-compress `σ` with block encryption `F key block` (32-octet key, 16-octet block): the arguments are
`X1 ‖ X2 ‖ X3 ‖ X4`, 16 octets each; the results are `S` and `Y`. -/
def compress (F : Bytes → Bytes → Bytes) (x1 x2 x3 x4 : Bytes) : Bytes × Bytes :=
  let s := xor (xor (F (x1 ++ x2) (xor x3 x4)) x3) x4
  let y1 := xor (F (s ++ x4) x1) x1
  let y2 := xor (F (not s ++ x3) x2) x2
  (s, y1 ++ y2)

/-- First 32 octets of the table `H`. -/
def iv : Bytes := [0xB1, 0x94, 0xBA, 0xC8, 0x0A, 0x08, 0xF5, 0x3B, 0x36, 0x6D, 0x00, 0x8E, 0x58, 0x4A, 0x5D, 0xE4,
  0x85, 0x04, 0xFA, 0x9D, 0x1B, 0xB6, 0xC7, 0xAC, 0x25, 0x2E, 0x72, 0xC2, 0x02, 0xFD, 0xCE, 0x0D]

/-- The message completed with the least number of zero octets to 32-octet blocks. -/
def pad (m : Bytes) : Bytes := m ++ List.replicate ((32 - m.length % 32) % 32) 0

/-- belt-hash. -/
def hash (F : Bytes → Bytes → Bytes) (m : Bytes) : Bytes :=
  let sh := (chunks 32 (pad m)).foldl (fun (sh : Bytes × Bytes) x =>
    let ty := compress F (x.take 16) (x.drop 16) (sh.2.take 16) (sh.2.drop 16)
    (xor sh.1 ty.1, ty.2)) (List.replicate 16 0, iv)
  (compress F (leBytes 16 (8 * m.length)) sh.1 (sh.2.take 16) (sh.2.drop 16)).2

/-! ### belt-block (6.1) -/

/-- Substitution `H`. -/
def H : List Byte := [
  0xB1, 0x94, 0xBA, 0xC8, 0x0A, 0x08, 0xF5, 0x3B, 0x36, 0x6D, 0x00, 0x8E, 0x58, 0x4A, 0x5D, 0xE4,
  0x85, 0x04, 0xFA, 0x9D, 0x1B, 0xB6, 0xC7, 0xAC, 0x25, 0x2E, 0x72, 0xC2, 0x02, 0xFD, 0xCE, 0x0D,
  0x5B, 0xE3, 0xD6, 0x12, 0x17, 0xB9, 0x61, 0x81, 0xFE, 0x67, 0x86, 0xAD, 0x71, 0x6B, 0x89, 0x0B,
  0x5C, 0xB0, 0xC0, 0xFF, 0x33, 0xC3, 0x56, 0xB8, 0x35, 0xC4, 0x05, 0xAE, 0xD8, 0xE0, 0x7F, 0x99,
  0xE1, 0x2B, 0xDC, 0x1A, 0xE2, 0x82, 0x57, 0xEC, 0x70, 0x3F, 0xCC, 0xF0, 0x95, 0xEE, 0x8D, 0xF1,
  0xC1, 0xAB, 0x76, 0x38, 0x9F, 0xE6, 0x78, 0xCA, 0xF7, 0xC6, 0xF8, 0x60, 0xD5, 0xBB, 0x9C, 0x4F,
  0xF3, 0x3C, 0x65, 0x7B, 0x63, 0x7C, 0x30, 0x6A, 0xDD, 0x4E, 0xA7, 0x79, 0x9E, 0xB2, 0x3D, 0x31,
  0x3E, 0x98, 0xB5, 0x6E, 0x27, 0xD3, 0xBC, 0xCF, 0x59, 0x1E, 0x18, 0x1F, 0x4C, 0x5A, 0xB7, 0x93,
  0xE9, 0xDE, 0xE7, 0x2C, 0x8F, 0x0C, 0x0F, 0xA6, 0x2D, 0xDB, 0x49, 0xF4, 0x6F, 0x73, 0x96, 0x47,
  0x06, 0x07, 0x53, 0x16, 0xED, 0x24, 0x7A, 0x37, 0x39, 0xCB, 0xA3, 0x83, 0x03, 0xA9, 0x8B, 0xF6,
  0x92, 0xBD, 0x9B, 0x1C, 0xE5, 0xD1, 0x41, 0x01, 0x54, 0x45, 0xFB, 0xC9, 0x5E, 0x4D, 0x0E, 0xF2,
  0x68, 0x20, 0x80, 0xAA, 0x22, 0x7D, 0x64, 0x2F, 0x26, 0x87, 0xF9, 0x34, 0x90, 0x40, 0x55, 0x11,
  0xBE, 0x32, 0x97, 0x13, 0x43, 0xFC, 0x9A, 0x48, 0xA0, 0x2A, 0x88, 0x5F, 0x19, 0x4B, 0x09, 0xA1,
  0x7E, 0xCD, 0xA4, 0xD0, 0x15, 0x44, 0xAF, 0x8C, 0xA5, 0x84, 0x50, 0xBF, 0x66, 0xD2, 0xE8, 0x8A,
  0xA2, 0xD7, 0x46, 0x52, 0x42, 0xA8, 0xDF, 0xB3, 0x69, 0x74, 0xC5, 0x51, 0xEB, 0x23, 0x29, 0x21,
  0xD4, 0xEF, 0xD9, 0xB4, 0x3A, 0x62, 0x28, 0x75, 0x91, 0x14, 0x10, 0xEA, 0x77, 0x6C, 0xDA, 0x1D]

/-- `G_r(u)`: substitute the four octets, then rotate the little-endian number left by `r`. -/
def G (r : Nat) (u : W32) : W32 :=
  (BitVec.ofNat 32 (ofLE ((leBytes 4 u.toNat).map fun x => H.getD x.toNat 0))).rotateLeft r

/-- Encryption of the block `x` (16 octets) with the key `k` (32 octets): eight rounds. -/
def block (k x : Bytes) : Bytes :=
  let K (i : Nat) : W32 := wordLE 32 k ((i - 1) % 8)
  let r := (List.range 8).foldl (fun (abcd : W32 × W32 × W32 × W32) n =>
    let (a, b, c, d) := abcd
    let i := n + 1
    let b := b ^^^ G 5 (a + K (7 * i - 6))
    let c := c ^^^ G 21 (d + K (7 * i - 5))
    let a := a - G 13 (b + K (7 * i - 4))
    let e := G 21 (b + c + K (7 * i - 3)) ^^^ BitVec.ofNat 32 i
    let b := b + e
    let c := c - e
    let d := d + G 13 (c + K (7 * i - 2))
    let b := b ^^^ G 21 (a + K (7 * i - 1))
    let c := c ^^^ G 5 (d + K (7 * i))
    -- a ↔ b, c ↔ d, b ↔ c
    (b, d, a, c)) (wordLE 32 x 0, wordLE 32 x 1, wordLE 32 x 2, wordLE 32 x 3)
  let (a, b, c, d) := r
  bytesOfWordsLE [b, d, a, c]

end Hashes.Spec.Belt
