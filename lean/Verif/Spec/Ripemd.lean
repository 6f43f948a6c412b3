import Verif.Base.Vec
import Verif.Spec.Padding
/-
RIPEMD-160 / -128 / -256 / -320 from the designers' paper (Dobbertin, Bosselaers, Preneel, "RIPEMD-160: a
strengthened version of RIPEMD", 1996) and the designers' pseudo-code for the extensions; register roles
A..E move at every step.  Independent of the model.
-/
namespace Hashes.Spec.Ripemd

/-- Boolean functions `f_1 .. f_5` (index 0..4). -/
def f : Nat → W32 → W32 → W32 → W32
  | 0, x, y, z => x ^^^ y ^^^ z
  | 1, x, y, z => (x &&& y) ||| (~~~x &&& z)
  | 2, x, y, z => (x ||| ~~~y) ^^^ z
  | 3, x, y, z => (x &&& z) ||| (y &&& ~~~z)
  | _, x, y, z => x ^^^ (y ||| ~~~z)

/-- Permutation ρ of the message words. -/
def rho (i : Nat) : Nat := [7, 4, 13, 1, 10, 6, 15, 3, 12, 0, 9, 5, 2, 14, 11, 8].getD i 0
/-- Permutation π: `π(i) = 9 i + 5 mod 16`. -/
def pi (i : Nat) : Nat := (9 * i + 5) % 16
/-- ρ applied `k` times. -/
def rhoPow : Nat → Nat → Nat
  | 0, i => i
  | k + 1, i => rho (rhoPow k i)
/-- Message word of step `j` of round `r`, left line: ρ^r. -/
def word (r j : Nat) : Nat := rhoPow r j
/-- Message word of step `j` of round `r`, right line: ρ^r ∘ π. -/
def word' (r j : Nat) : Nat := rhoPow r (pi j)

/-- Rotation amount used for message word `i` in round `r` (both lines). -/
def shift (r i : Nat) : Nat := ([
  [11, 14, 15, 12,  5,  8,  7,  9, 11, 13, 14, 15,  6,  7,  9,  8],
  [12, 13, 11, 15,  6,  9,  9,  7, 12, 15, 11, 13,  7,  8,  7,  7],
  [13, 15, 14, 11,  7,  7,  6,  8, 13, 14, 13, 12,  5,  5,  6,  9],
  [14, 11, 12, 14,  8,  6,  5,  5, 15, 12, 15, 14,  9,  9,  8,  6],
  [15, 12, 13, 13,  9,  5,  8,  6, 14, 11, 12, 11,  8,  6,  5,  5]].getD r []).getD i 0

/-- Left constants: 0 and the integer parts of `2^30 √2, 2^30 √3, 2^30 √5, 2^30 √7`. -/
def K (r : Nat) : W32 := [0, 0x5a827999, 0x6ed9eba1, 0x8f1bbcdc, 0xa953fd4e].getD r 0
/-- Right constants: integer parts of `2^30 ∛2, 2^30 ∛3, 2^30 ∛5, 2^30 ∛7`, and 0. -/
def K' (r : Nat) : W32 := [0x50a28be6, 0x5c4dd124, 0x6d703ef3, 0x7a6d76e9, 0].getD r 0
/-- Right constants of the four-round variants. -/
def K4' (r : Nat) : W32 := [0x50a28be6, 0x5c4dd124, 0x6d703ef3, 0].getD r 0

/-! #### Five-register line (RIPEMD-160, -320) -/

/-- One step on registers A,B,C,D,E: `T = rol_s(A + f(B,C,D) + X + K) + E; A = E; E = D; D = rol_10 C; C = B; B = T`. -/
def step5 (f : W32 → W32 → W32 → W32) (k x : W32) (s : Nat) (v : V5 W32) : V5 W32 :=
  ⟨v.x4, (v.x0 + f v.x1 v.x2 v.x3 + x + k).rotateLeft s + v.x4, v.x1, v.x2.rotateLeft 10, v.x3⟩

/-- Round `r` of the left line. -/
def left5 (X : Nat → W32) (r : Nat) (v : V5 W32) : V5 W32 :=
  (List.range 16).foldl (fun v j => step5 (f r) (K r) (X (word r j)) (shift r (word r j)) v) v
/-- Round `r` of the right line; boolean functions in reverse order. -/
def right5 (X : Nat → W32) (r : Nat) (v : V5 W32) : V5 W32 :=
  (List.range 16).foldl (fun v j => step5 (f (4 - r)) (K' r) (X (word' r j)) (shift r (word' r j)) v) v

/-- RIPEMD-160 compression. -/
def compress160 (h : V5 W32) (block : Bytes) : V5 W32 :=
  let X := wordLE 32 block
  let l := (List.range 5).foldl (fun v r => left5 X r v) h
  let r := (List.range 5).foldl (fun v r => right5 X r v) h
  ⟨h.x1 + l.x2 + r.x3, h.x2 + l.x3 + r.x4, h.x3 + l.x4 + r.x0, h.x4 + l.x0 + r.x1, h.x0 + l.x1 + r.x2⟩

/-- Both lines of round `r`. -/
def both5 (X : Nat → W32) (r : Nat) (p : V5 W32 × V5 W32) : V5 W32 × V5 W32 := (left5 X r p.1, right5 X r p.2)
/-- Exchange one register (0 = A, .., 4 = E) between the two lines. -/
def exchange5 (i : Nat) (p : V5 W32 × V5 W32) : V5 W32 × V5 W32 := (p.1.set i (p.2.get i), p.2.set i (p.1.get i))

/-- RIPEMD-320 compression: after rounds 1..5 the lines exchange B, D, A, C, E respectively. -/
def compress320 (h : V2 (V5 W32)) (block : Bytes) : V2 (V5 W32) :=
  let X := wordLE 32 block
  let p := exchange5 1 (both5 X 0 (h.x0, h.x1))
  let p := exchange5 3 (both5 X 1 p)
  let p := exchange5 0 (both5 X 2 p)
  let p := exchange5 2 (both5 X 3 p)
  let p := exchange5 4 (both5 X 4 p)
  ⟨h.x0.zip (· + ·) p.1, h.x1.zip (· + ·) p.2⟩

/-! #### Four-register line (RIPEMD-128, -256) -/

/-- One step on registers A,B,C,D: `T = rol_s(A + f(B,C,D) + X + K); A = D; D = C; C = B; B = T`. -/
def step4 (f : W32 → W32 → W32 → W32) (k x : W32) (s : Nat) (v : V4 W32) : V4 W32 :=
  ⟨v.x3, (v.x0 + f v.x1 v.x2 v.x3 + x + k).rotateLeft s, v.x1, v.x2⟩

/-- Round `r` of the left line. -/
def left4 (X : Nat → W32) (r : Nat) (v : V4 W32) : V4 W32 :=
  (List.range 16).foldl (fun v j => step4 (f r) (K r) (X (word r j)) (shift r (word r j)) v) v
/-- Round `r` of the right line; boolean functions in reverse order. -/
def right4 (X : Nat → W32) (r : Nat) (v : V4 W32) : V4 W32 :=
  (List.range 16).foldl (fun v j => step4 (f (3 - r)) (K4' r) (X (word' r j)) (shift r (word' r j)) v) v

/-- RIPEMD-128 compression. -/
def compress128 (h : V4 W32) (block : Bytes) : V4 W32 :=
  let X := wordLE 32 block
  let l := (List.range 4).foldl (fun v r => left4 X r v) h
  let r := (List.range 4).foldl (fun v r => right4 X r v) h
  ⟨h.x1 + l.x2 + r.x3, h.x2 + l.x3 + r.x0, h.x3 + l.x0 + r.x1, h.x0 + l.x1 + r.x2⟩

/-- Both lines of round `r`. -/
def both4 (X : Nat → W32) (r : Nat) (p : V4 W32 × V4 W32) : V4 W32 × V4 W32 := (left4 X r p.1, right4 X r p.2)
/-- Exchange one register (0 = A, .., 3 = D) between the two lines. -/
def exchange4 (i : Nat) (p : V4 W32 × V4 W32) : V4 W32 × V4 W32 := (p.1.set i (p.2.get i), p.2.set i (p.1.get i))

/-- RIPEMD-256 compression: after rounds 1..4 the lines exchange A, B, C, D respectively. -/
def compress256 (h : V2 (V4 W32)) (block : Bytes) : V2 (V4 W32) :=
  let X := wordLE 32 block
  let p := exchange4 0 (both4 X 0 (h.x0, h.x1))
  let p := exchange4 1 (both4 X 1 p)
  let p := exchange4 2 (both4 X 2 p)
  let p := exchange4 3 (both4 X 3 p)
  ⟨h.x0.zip (· + ·) p.1, h.x1.zip (· + ·) p.2⟩

/-! #### The hashes: MD4 padding, MD4-style initial values -/

/-- Padding as for MD4: bit length modulo 2^64, little endian. -/
def pad (m : Bytes) : Bytes := mdPad 64 0x80 (leBytes 8 (8 * m.length)) m

def IV4 : V4 W32 := ⟨0x67452301, 0xefcdab89, 0x98badcfe, 0x10325476⟩
def IV5 : V5 W32 := ⟨0x67452301, 0xefcdab89, 0x98badcfe, 0x10325476, 0xc3d2e1f0⟩
/-- Second half of the double-length initial values. -/
def IV4' : V4 W32 := ⟨0x76543210, 0xfedcba98, 0x89abcdef, 0x01234567⟩
def IV5' : V5 W32 := ⟨0x76543210, 0xfedcba98, 0x89abcdef, 0x01234567, 0x3c2d1e0f⟩

/-- RIPEMD-128. -/
def ripemd128 (m : Bytes) : Bytes := bytesOfWordsLE ((chunks 64 (pad m)).foldl compress128 IV4).toList
/-- RIPEMD-160. -/
def ripemd160 (m : Bytes) : Bytes := bytesOfWordsLE ((chunks 64 (pad m)).foldl compress160 IV5).toList
/-- RIPEMD-256. -/
def ripemd256 (m : Bytes) : Bytes :=
  let h := (chunks 64 (pad m)).foldl compress256 ⟨IV4, IV4'⟩
  bytesOfWordsLE (h.x0.toList ++ h.x1.toList)
/-- RIPEMD-320. -/
def ripemd320 (m : Bytes) : Bytes :=
  let h := (chunks 64 (pad m)).foldl compress320 ⟨IV5, IV5'⟩
  bytesOfWordsLE (h.x0.toList ++ h.x1.toList)

/-- The constants are the integer parts of `2^30` times square and cube roots of 2, 3, 5, 7. -/
example : ([2, 3, 5, 7].zip [1, 2, 3, 4]).all (fun p =>
    let k := (K p.2).toNat
    k ^ 2 ≤ p.1 * 2 ^ 60 && p.1 * 2 ^ 60 < (k + 1) ^ 2) = true := by decide +kernel
example : ([2, 3, 5, 7].zip [0, 1, 2, 3]).all (fun p =>
    let k := (K' p.2).toNat
    k ^ 3 ≤ p.1 * 2 ^ 90 && p.1 * 2 ^ 90 < (k + 1) ^ 3) = true := by decide +kernel

end Hashes.Spec.Ripemd
