import Verif.Base.Vec
import Verif.Spec.Padding
/-
FIPS 180-4 (Secure Hash Standard), written from the standard; independent of the model.
Constants are *defined* the way the standard defines them (fractional parts of roots of primes,
SHA-512/t IV generation function) rather than copied.
-/
namespace Hashes.Spec

/-- Word sequence whose first words are given and whose later words are computed from the earlier ones;
the list is kept newest-first. -/
def extend {α : Type} (next : List α → α) : Nat → List α → List α
  | 0, r => r
  | n + 1, r => let r' := extend next n r; next r' :: r'

/-- Message expansion: `first` followed by `n` computed words, in order. `next` sees the previous words
newest-first, so index `j` is the word `j + 1` positions back. -/
def expand {α : Type} (next : List α → α) (n : Nat) (first : List α) : List α :=
  (extend next n first.reverse).reverse

/-- Largest `r` (built bit by bit, `b` bits) with `r^k ≤ n`. -/
def iroot (k n : Nat) : Nat → Nat → Nat
  | 0, acc => acc
  | b + 1, acc => if (acc + 2 ^ b) ^ k ≤ n then iroot k n b (acc + 2 ^ b) else iroot k n b acc

/-- First `w` bits of the fractional part of the `k`-th root of `p`. -/
def fracRoot (k w p : Nat) : BitVec w := BitVec.ofNat w (iroot k (p * 2 ^ (k * w)) (w + 5) 0)

/-- Trial division. -/
def isPrime (n : Nat) : Bool := decide (2 ≤ n) && (List.range n).all fun d => decide (d < 2) || decide (n % d ≠ 0)

/-- The first 80 primes. -/
def primes : List Nat := (List.range 410).filter isPrime

/-- FIPS 180-4 §4.1: `Ch`. -/
def Ch {w : Nat} (x y z : BitVec w) : BitVec w := (x &&& y) ^^^ (~~~x &&& z)
/-- FIPS 180-4 §4.1: `Maj`. -/
def Maj {w : Nat} (x y z : BitVec w) : BitVec w := (x &&& y) ^^^ (x &&& z) ^^^ (y &&& z)
/-- FIPS 180-4 §4.1: `Parity`. -/
def Parity {w : Nat} (x y z : BitVec w) : BitVec w := x ^^^ y ^^^ z

/-- §6.2.2/§6.4.2 step 3: one round with message word `Wt` and constant `Kt`. -/
def round2 {w : Nat} (S0 S1 : BitVec w → BitVec w) (Kt Wt : BitVec w) (s : V8 (BitVec w)) : V8 (BitVec w) :=
  let T1 := s.x7 + S1 s.x4 + Ch s.x4 s.x5 s.x6 + Kt + Wt
  let T2 := S0 s.x0 + Maj s.x0 s.x1 s.x2
  ⟨T1 + T2, s.x0, s.x1, s.x2, s.x3 + T1, s.x4, s.x5, s.x6⟩

/-- Rounds `0 .. n-1`. -/
def rounds2 {w : Nat} (S0 S1 : BitVec w → BitVec w) (K W : Nat → BitVec w) : Nat → V8 (BitVec w) → V8 (BitVec w)
  | 0, s => s
  | n + 1, s => round2 S0 S1 (K n) (W n) (rounds2 S0 S1 K W n s)

/-! ### SHA-224 / SHA-256 -/
namespace Sha256

/-- (4.4) -/
def S0 (x : W32) : W32 := x.rotateRight 2 ^^^ x.rotateRight 13 ^^^ x.rotateRight 22
/-- (4.5) -/
def S1 (x : W32) : W32 := x.rotateRight 6 ^^^ x.rotateRight 11 ^^^ x.rotateRight 25
/-- (4.6) -/
def s0 (x : W32) : W32 := x.rotateRight 7 ^^^ x.rotateRight 18 ^^^ (x >>> 3)
/-- (4.7) -/
def s1 (x : W32) : W32 := x.rotateRight 17 ^^^ x.rotateRight 19 ^^^ (x >>> 10)

/-- §4.2.2: first 32 bits of the fractional parts of the cube roots of the first 64 primes. -/
def Ks : List W32 := (primes.take 64).map (fracRoot 3 32)
def K (t : Nat) : W32 := Ks.getD t 0

/-- §6.2.2 step 1: the 64 schedule words of a block. -/
def schedule (block : Bytes) : List W32 :=
  expand (fun p => s1 (p.getD 1 0) + p.getD 6 0 + s0 (p.getD 14 0) + p.getD 15 0) 48
    ((List.range 16).map (wordBE 32 block))

/-- §6.2.2: one block. -/
def compress (H : V8 W32) (block : Bytes) : V8 W32 :=
  let W := schedule block
  H.zip (· + ·) (rounds2 S0 S1 K (fun t => W.getD t 0) 64 H)

/-- §5.1.1: padding with the 64-bit big-endian bit length. -/
def pad (m : Bytes) : Bytes := mdPad 64 0x80 (beBytes 8 (8 * m.length)) m

/-- §6.2.2: all eight chaining words after the whole message. -/
def chain (H0 : V8 W32) (m : Bytes) : V8 W32 := (chunks 64 (pad m)).foldl compress H0

/-- §5.3.3: fractional parts of the square roots of the first eight primes. -/
def IV256 : V8 W32 := V8.ofFn fun i => fracRoot 2 32 (primes.getD i 0)
/-- §5.3.2: the second 32 bits of the fractional parts of the square roots of the 9th–16th primes. -/
def IV224 : V8 W32 := V8.ofFn fun i => (fracRoot 2 64 (primes.getD (8 + i) 0)).truncate 32

/-- SHA-256. -/
def sha256 (m : Bytes) : Bytes := bytesOfWordsBE (chain IV256 m).toList
/-- SHA-224 (§6.3): leftmost 224 bits. -/
def sha224 (m : Bytes) : Bytes := (bytesOfWordsBE (chain IV224 m).toList).take 28

end Sha256

/-! ### SHA-384 / SHA-512 / SHA-512/t -/
namespace Sha512

/-- (4.10) -/
def S0 (x : W64) : W64 := x.rotateRight 28 ^^^ x.rotateRight 34 ^^^ x.rotateRight 39
/-- (4.11) -/
def S1 (x : W64) : W64 := x.rotateRight 14 ^^^ x.rotateRight 18 ^^^ x.rotateRight 41
/-- (4.12) -/
def s0 (x : W64) : W64 := x.rotateRight 1 ^^^ x.rotateRight 8 ^^^ (x >>> 7)
/-- (4.13) -/
def s1 (x : W64) : W64 := x.rotateRight 19 ^^^ x.rotateRight 61 ^^^ (x >>> 6)

/-- §4.2.3: first 64 bits of the fractional parts of the cube roots of the first 80 primes. -/
def Ks : List W64 := (primes.take 80).map (fracRoot 3 64)
def K (t : Nat) : W64 := Ks.getD t 0

/-- §6.4.2 step 1. -/
def schedule (block : Bytes) : List W64 :=
  expand (fun p => s1 (p.getD 1 0) + p.getD 6 0 + s0 (p.getD 14 0) + p.getD 15 0) 64
    ((List.range 16).map (wordBE 64 block))

/-- §6.4.2: one block. -/
def compress (H : V8 W64) (block : Bytes) : V8 W64 :=
  let W := schedule block
  H.zip (· + ·) (rounds2 S0 S1 K (fun t => W.getD t 0) 80 H)

/-- §5.1.2: padding with the 128-bit big-endian bit length. -/
def pad (m : Bytes) : Bytes := mdPad 128 0x80 (beBytes 16 (8 * m.length)) m

/-- §6.4.2 over the whole message. -/
def chain (H0 : V8 W64) (m : Bytes) : V8 W64 := (chunks 128 (pad m)).foldl compress H0

/-- §5.3.5 -/
def IV512 : V8 W64 := V8.ofFn fun i => fracRoot 2 64 (primes.getD i 0)
/-- §5.3.4 -/
def IV384 : V8 W64 := V8.ofFn fun i => fracRoot 2 64 (primes.getD (8 + i) 0)
/-- §5.3.6: the SHA-512/t IV generation function applied to the ASCII name. -/
def ivGen (name : Bytes) : V8 W64 := chain (IV512.zip (fun h _ => h ^^^ 0xa5a5a5a5a5a5a5a5) IV512) name

/-- "SHA-512/224" -/
def name224 : Bytes := [0x53, 0x48, 0x41, 0x2d, 0x35, 0x31, 0x32, 0x2f, 0x32, 0x32, 0x34]
/-- "SHA-512/256" -/
def name256 : Bytes := [0x53, 0x48, 0x41, 0x2d, 0x35, 0x31, 0x32, 0x2f, 0x32, 0x35, 0x36]

/-- SHA-512. -/
def sha512 (m : Bytes) : Bytes := bytesOfWordsBE (chain IV512 m).toList
/-- SHA-384. -/
def sha384 (m : Bytes) : Bytes := (bytesOfWordsBE (chain IV384 m).toList).take 48
/-- SHA-512/256. -/
def sha512_256 (m : Bytes) : Bytes := (bytesOfWordsBE (chain (ivGen name256) m).toList).take 32
/-- SHA-512/224. -/
def sha512_224 (m : Bytes) : Bytes := (bytesOfWordsBE (chain (ivGen name224) m).toList).take 28

end Sha512

/-! ### SHA-1 -/
namespace Sha1

/-- (4.1) -/
def f (t : Nat) (x y z : W32) : W32 :=
  if t < 20 then Ch x y z else if t < 40 then Parity x y z else if t < 60 then Maj x y z else Parity x y z

/-- (4.14) -/
def K (t : Nat) : W32 :=
  if t < 20 then 0x5a827999 else if t < 40 then 0x6ed9eba1 else if t < 60 then 0x8f1bbcdc else 0xca62c1d6

/-- §6.1.2 step 1. -/
def schedule (block : Bytes) : List W32 :=
  expand (fun p => (p.getD 2 0 ^^^ p.getD 7 0 ^^^ p.getD 13 0 ^^^ p.getD 15 0).rotateLeft 1) 64
    ((List.range 16).map (wordBE 32 block))

/-- §6.1.2 step 3. -/
def round (t : Nat) (Wt : W32) (s : V5 W32) : V5 W32 :=
  ⟨s.x0.rotateLeft 5 + f t s.x1 s.x2 s.x3 + s.x4 + K t + Wt, s.x0, s.x1.rotateLeft 30, s.x2, s.x3⟩

/-- Rounds `0 .. n-1`. -/
def rounds (W : Nat → W32) : Nat → V5 W32 → V5 W32
  | 0, s => s
  | n + 1, s => round n (W n) (rounds W n s)

/-- §6.1.2: one block. -/
def compress (H : V5 W32) (block : Bytes) : V5 W32 :=
  let W := schedule block
  H.zip (· + ·) (rounds (fun t => W.getD t 0) 80 H)

/-- §5.1.1. -/
def pad (m : Bytes) : Bytes := mdPad 64 0x80 (beBytes 8 (8 * m.length)) m

/-- §5.3.1 -/
def IV : V5 W32 := ⟨0x67452301, 0xefcdab89, 0x98badcfe, 0x10325476, 0xc3d2e1f0⟩

/-- SHA-1. -/
def sha1 (m : Bytes) : Bytes := bytesOfWordsBE ((chunks 64 (pad m)).foldl compress IV).toList

end Sha1
end Hashes.Spec
