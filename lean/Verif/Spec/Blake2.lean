import Verif.Base.Bytes
/-
Independent specification of BLAKE2b and BLAKE2s: RFC 7693 §2–3 (mixing function G, compression function F, message
processing) and the sequential-mode parameter block of the BLAKE2 paper §2.8 (which RFC 7693 §2.5 fixes to zero salt and
personalisation).
-/
namespace Hashes.Spec.Blake2

/-- The constants that distinguish BLAKE2b from BLAKE2s (RFC 7693 §2.1). `w` is the word size in bits. -/
structure Variant (w : Nat) where
  /-- block bytes -/
  bb : Nat
  /-- number of rounds -/
  r : Nat
  R1 : Nat
  R2 : Nat
  R3 : Nat
  R4 : Nat
  IV : List (BitVec w)

/-- §2.7 message word schedule permutations. -/
def SIGMA : List (List Nat) := [
  [ 0,  1,  2,  3,  4,  5,  6,  7,  8,  9, 10, 11, 12, 13, 14, 15],
  [14, 10,  4,  8,  9, 15, 13,  6,  1, 12,  0,  2, 11,  7,  5,  3],
  [11,  8, 12,  0,  5,  2, 15, 13, 10, 14,  3,  6,  7,  1,  9,  4],
  [ 7,  9,  3,  1, 13, 12, 11, 14,  2,  6,  5, 10,  4,  0, 15,  8],
  [ 9,  0,  5,  7,  2,  4, 10, 15, 14,  1, 11, 12,  6,  8,  3, 13],
  [ 2, 12,  6, 10,  0, 11,  8,  3,  4, 13,  7,  5, 15, 14,  1,  9],
  [12,  5,  1, 15, 14, 13,  4, 10,  0,  7,  6,  3,  9,  2,  8, 11],
  [13, 11,  7, 14, 12,  1,  3,  9,  5,  0, 15,  4,  8,  6,  2, 10],
  [ 6, 15, 14,  9, 11,  3,  0,  8, 12,  2, 13,  7,  1,  4, 10,  5],
  [10,  2,  8,  4,  7,  6,  1,  5, 15, 11,  9, 14,  3, 12, 13,  0]]

/-- BLAKE2b: 64-bit words, 12 rounds. §2.6: IV[i] = floor(2^64 * frac(sqrt(prime(i+1)))), the SHA-512 constants. -/
def b : Variant 64 where
  bb := 128
  r := 12
  R1 := 32
  R2 := 24
  R3 := 16
  R4 := 63
  IV := [0x6a09e667f3bcc908, 0xbb67ae8584caa73b, 0x3c6ef372fe94f82b, 0xa54ff53a5f1d36f1,
         0x510e527fade682d1, 0x9b05688c2b3e6c1f, 0x1f83d9abfb41bd6b, 0x5be0cd19137e2179]

/-- BLAKE2s: 32-bit words, 10 rounds. -/
def s : Variant 32 where
  bb := 64
  r := 10
  R1 := 16
  R2 := 12
  R3 := 8
  R4 := 7
  IV := [0x6a09e667, 0xbb67ae85, 0x3c6ef372, 0xa54ff53a, 0x510e527f, 0x9b05688c, 0x1f83d9ab, 0x5be0cd19]

variable {w : Nat}

/-- The prime whose square root gives `IV[i]`. -/
def ivPrime (i : Nat) : Nat := [2, 3, 5, 7, 11, 13, 17, 19].getD i 0

/-- §3.1 mixing function G on the working vector. -/
def G (V : Variant w) (v : List (BitVec w)) (a b c d : Nat) (x y : BitVec w) : List (BitVec w) :=
  let g := fun i => v.getD i 0
  let va := g a + g b + x
  let vd := (g d ^^^ va).rotateRight V.R1
  let vc := g c + vd
  let vb := (g b ^^^ vc).rotateRight V.R2
  let va := va + vb + y
  let vd := (vd ^^^ va).rotateRight V.R3
  let vc := vc + vd
  let vb := (vb ^^^ vc).rotateRight V.R4
  (((v.set a va).set b vb).set c vc).set d vd

/-- One round of §3.2 with message words `m` and schedule row `σ`. -/
def round (V : Variant w) (m : Nat → BitVec w) (σ : List Nat) (v : List (BitVec w)) : List (BitVec w) :=
  let k := fun i => m (σ.getD i 0)
  let v := G V v 0 4 8 12 (k 0) (k 1)
  let v := G V v 1 5 9 13 (k 2) (k 3)
  let v := G V v 2 6 10 14 (k 4) (k 5)
  let v := G V v 3 7 11 15 (k 6) (k 7)
  let v := G V v 0 5 10 15 (k 8) (k 9)
  let v := G V v 1 6 11 12 (k 10) (k 11)
  let v := G V v 2 7 8 13 (k 12) (k 13)
  G V v 3 4 9 14 (k 14) (k 15)

/-- §3.2 compression function F: `h` the 8-word state, `t` the offset counter, `f` the final-block flag. -/
def F (V : Variant w) (h : List (BitVec w)) (block : Bytes) (t : Nat) (f : Bool) : List (BitVec w) :=
  let v := h ++ V.IV
  let v := v.set 12 (v.getD 12 0 ^^^ BitVec.ofNat w t)
  let v := v.set 13 (v.getD 13 0 ^^^ BitVec.ofNat w (t / 2 ^ w))
  let v := if f then v.set 14 (v.getD 14 0 ^^^ BitVec.allOnes w) else v
  let v := (List.range V.r).foldl (fun v i => round V (wordLE w block) (SIGMA.getD (i % 10) []) v) v
  (List.range 8).map fun i => h.getD i 0 ^^^ v.getD i 0 ^^^ v.getD (i + 8) 0

/-- Pad with zeros on the right to `n` bytes. -/
def zeroPad (n : Nat) (x : Bytes) : Bytes := x ++ List.replicate (n - x.length) 0

/-- Parameter block for sequential mode (fanout 1, depth 1), `w` bytes long: digest length, key length, fanout, depth, zeros,
salt, personalisation (each two words). -/
def paramBlock (w : Nat) (salt persona : Bytes) (kk nn : Nat) : Bytes :=
  [BitVec.ofNat 8 nn, BitVec.ofNat 8 kk, 1, 1] ++ List.replicate (w / 2 - 4) 0 ++
    zeroPad (w / 4) salt ++ zeroPad (w / 4) persona

/-- Initial state: IV xor parameter block. -/
def start (V : Variant w) (P : Bytes) : List (BitVec w) :=
  (List.range 8).map fun i => V.IV.getD i 0 ^^^ wordLE w P i

/-- §3.3: process the data `d` (padded key block first, if any): all blocks but the last with flag false, then the last,
zero padded, with flag true; the counter is the number of bytes so far. -/
def process (V : Variant w) (h : List (BitVec w)) (d : Bytes) : List (BitVec w) :=
  let n := (d.length - 1) / V.bb
  let h := (List.range n).foldl (fun h i => F V h ((d.drop (i * V.bb)).take V.bb) ((i + 1) * V.bb) false) h
  F V h (zeroPad V.bb (d.drop (n * V.bb))) d.length true

/-- Keyed, salted, personalised BLAKE2 of `m` with `nn` output bytes; `key = []` is unkeyed. -/
def hash (V : Variant w) (nn : Nat) (key salt persona m : Bytes) : Bytes :=
  let d := (if key = [] then [] else zeroPad V.bb key) ++ m
  (bytesOfWordsLE (process V (start V (paramBlock w salt persona key.length nn)) d)).take nn

end Hashes.Spec.Blake2
