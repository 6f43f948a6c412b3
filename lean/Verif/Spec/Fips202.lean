import Verif.Base.Bytes
/-
FIPS 202 (SHA-3 standard), SP 800-185 (cSHAKE), RFC 9861 (TurboSHAKE, KangarooTwelve), written from the
documents on bit strings / byte strings; independent of the model.
-/
namespace Hashes.Spec

/-! ### Bit strings (FIPS 202 appendix B.1: bit `i` of a byte is its `i`-th least significant bit) -/

/-- Bit string → number, least significant bit first. -/
def natOfBits : List Bool → Nat
  | [] => 0
  | b :: l => b.toNat + 2 * natOfBits l

/-- The `n` low bits of `x`, least significant bit first. -/
def bitsOfNat : Nat → Nat → List Bool
  | 0, _ => []
  | n + 1, x => (x % 2 == 1) :: bitsOfNat n (x / 2)

/-- Bit string of a byte string. -/
def bitsOf (b : Bytes) : List Bool := b.flatMap fun x => bitsOfNat 8 x.toNat

/-- Byte string of a bit string whose length is a multiple of 8. -/
def bytesOf (l : List Bool) : Bytes := (chunks 8 l).map fun c => BitVec.ofNat 8 (natOfBits c)

namespace Keccak

/-! ### Keccak-p[1600, nr] (FIPS 202 §3), lane `A[x,y]` at list index `5 y + x` -/

/-- Lane `A[x, y]`, coordinates modulo 5. -/
def lane (A : List W64) (x y : Nat) : W64 := A.getD (5 * (y % 5) + x % 5) 0

/-- State array from its lanes. -/
def array (g : Nat → Nat → W64) : List W64 := (List.range 25).map fun i => g (i % 5) (i / 5)

/-- §3.2.1 -/
def theta (A : List W64) : List W64 :=
  let C := fun x => lane A x 0 ^^^ lane A x 1 ^^^ lane A x 2 ^^^ lane A x 3 ^^^ lane A x 4
  let D := fun x => C (x + 4) ^^^ (C (x + 1)).rotateLeft 1
  array fun x y => lane A x y ^^^ D x

/-- §3.2.2: the walk `(x, y) ← (y, 2x + 3y)` from `(1, 0)`; entry `t` gets offset `(t+1)(t+2)/2`. -/
def rhoWalk : Nat → Nat → Nat → List ((Nat × Nat) × Nat)
  | 0, _, _ => []
  | n + 1, x, y => ((x, y), (24 - n) * (24 - n + 1) / 2 % 64) :: rhoWalk n y ((2 * x + 3 * y) % 5)

/-- §3.2.2: rotation offset of a lane. -/
def rhoOffset (x y : Nat) : Nat := ((rhoWalk 24 1 0).lookup (x, y)).getD 0

/-- §3.2.2 -/
def rho (A : List W64) : List W64 := array fun x y => (lane A x y).rotateLeft (rhoOffset x y)
/-- §3.2.3 -/
def pi (A : List W64) : List W64 := array fun x y => lane A (x + 3 * y) x
/-- §3.2.4 -/
def chi (A : List W64) : List W64 := array fun x y => lane A x y ^^^ (~~~(lane A (x + 1) y) &&& lane A (x + 2) y)

/-- §3.2.5, Algorithm 5: one LFSR step on `R[0..7]`. -/
def lfsr (R : List Bool) : List Bool :=
  let R := false :: R
  let r8 := R.getD 8 false
  [R.getD 0 false ^^ r8, R.getD 1 false, R.getD 2 false, R.getD 3 false, R.getD 4 false ^^ r8, R.getD 5 false ^^ r8,
   R.getD 6 false ^^ r8, R.getD 7 false]

/-- `n` LFSR steps from `10000000`. -/
def lfsrState : Nat → List Bool
  | 0 => [true, false, false, false, false, false, false, false]
  | n + 1 => lfsr (lfsrState n)

/-- §3.2.5, Algorithm 5. -/
def rc (t : Nat) : Bool := (lfsrState (t % 255)).getD 0 false

/-- §3.2.5, Algorithm 6: round constant of round `ir` (`l = 6`). -/
def RC (ir : Nat) : W64 :=
  (List.range 7).foldl (fun w j => if rc (j + 7 * ir) then w ||| (1 <<< (2 ^ j - 1)) else w) 0

/-- §3.2.5 -/
def iota (ir : Nat) (A : List W64) : List W64 := array fun x y => if x = 0 ∧ y = 0 then lane A 0 0 ^^^ RC ir else lane A x y

/-- §3.3: one round. -/
def round (ir : Nat) (A : List W64) : List W64 := iota ir (chi (pi (rho (theta A))))

/-- §3.3: the last `nr` rounds, indices `24 - nr .. 23`. -/
def keccakP (nr : Nat) (A : List W64) : List W64 := (List.range nr).foldl (fun A i => round (24 - nr + i) A) A

/-! ### Sponge on bit strings (FIPS 202 §4) -/

/-- §3.1.2, §3.1.3 around a permutation of lane arrays. -/
def onBits (f : List W64 → List W64) (S : List Bool) : List Bool :=
  (f ((List.range 25).map fun i => BitVec.ofNat 64 (natOfBits ((S.drop (64 * i)).take 64)))).flatMap
    fun w => bitsOfNat 64 w.toNat

/-- §5.1: `pad10*1(x, m)`, `j = (-m-2) mod x`. -/
def pad101 (x m : Nat) : List Bool := [true] ++ List.replicate ((x - (m + 2) % x) % x) false ++ [true]

/-- Bitwise exclusive or. -/
def xorBits (a b : List Bool) : List Bool := List.zipWith xor a b

/-- §4 steps 1–6: absorbing. -/
def absorb (f : List W64 → List W64) (r : Nat) (N : List Bool) : List Bool :=
  (chunks r (N ++ pad101 r N.length)).foldl
    (fun S P => onBits f (xorBits S (P ++ List.replicate (1600 - r) false))) (List.replicate 1600 false)

/-- §4 steps 7–10: `n` rate-sized output pieces. -/
def squeeze (f : List W64 → List W64) (r : Nat) : Nat → List Bool → List Bool
  | 0, _ => []
  | n + 1, S => S.take r ++ squeeze f r n (onBits f S)

/-- §4: `SPONGE[f, pad10*1, r](N, d)`. -/
def sponge (f : List W64 → List W64) (r : Nat) (N : List Bool) (d : Nat) : List Bool :=
  (squeeze f r (d / r + 1) (absorb f r N)).take d

/-- §5.2: `KECCAK[c](N, d)`. -/
def keccak (c : Nat) (N : List Bool) (d : Nat) : List Bool := sponge (keccakP 24) (1600 - c) N d

/-- §6.1: SHA3-`8n` (n = digest bytes). -/
def sha3 (n : Nat) (m : Bytes) : Bytes := bytesOf (keccak (2 * (8 * n)) (bitsOf m ++ [false, true]) (8 * n))

/-- §6.2: SHAKE128 (`s = 128`) / SHAKE256 (`s = 256`), `L` bytes of output. -/
def shake (s : Nat) (m : Bytes) (L : Nat) : Bytes :=
  bytesOf (keccak (2 * s) (bitsOf m ++ [true, true, true, true]) (8 * L))

/-- Keccak (round-3 submission), no domain bits: capacity `c`, `n` digest bytes. -/
def keccakOrig (c n : Nat) (m : Bytes) : Bytes := bytesOf (keccak c (bitsOf m) (8 * n))

/-- CryptoNote's Keccak-1600: the whole final state (200 bytes) after absorbing with capacity `c`. -/
def keccakState (c : Nat) (m : Bytes) : Bytes := bytesOf (absorb (keccakP 24) (1600 - c) (bitsOf m))

/-! ### SP 800-185 -/

/-- Number of base-256 digits of `x` (0 for 0). -/
def digits256 : Nat → Nat → Nat
  | 0, _ => 0
  | fuel + 1, x => if x = 0 then 0 else 1 + digits256 fuel (x / 256)

/-- §2.3.1: `left_encode(x)`: smallest `n ≥ 1` with `2^(8n) > x`, then `x` in `n` big-endian bytes. -/
def leftEncode (x : Nat) : Bytes :=
  let n := max 1 (digits256 x x)
  BitVec.ofNat 8 n :: beBytes n x

/-- §2.3.2 (byte strings). -/
def encodeString (s : Bytes) : Bytes := leftEncode (8 * s.length) ++ s

/-- §2.3.3: `bytepad(X, w)`. -/
def bytepad (x : Bytes) (w : Nat) : Bytes :=
  let z := leftEncode w ++ x
  z ++ List.replicate ((w - z.length % w) % w) 0

/-- §3.3: cSHAKE128/256 (`s = 128, 256`) with function name `N` and customization `S`, `L` output bytes. -/
def cshake (s : Nat) (x : Bytes) (L : Nat) (N S : Bytes) : Bytes :=
  if N = [] ∧ S = [] then shake s x L
  else bytesOf (keccak (2 * s) (bitsOf (bytepad (encodeString N ++ encodeString S) (200 - s / 4) ++ x) ++ [false, false])
    (8 * L))

/-! ### RFC 9861: TurboSHAKE -/

/-- `f` on 200-byte states. -/
def onBytes (f : List W64 → List W64) (S : Bytes) : Bytes :=
  bytesOfWordsLE (f ((List.range 25).map (wordLE 64 S)))

/-- Bytewise exclusive or. -/
def xorBytes (a b : Bytes) : Bytes := List.zipWith (· ^^^ ·) a b

/-- RFC 9861 §2.2, absorbing part: `input = M ‖ D`, all full blocks but the last one, then the last block with the
bit 0x80 in the last rate byte. -/
def absorbBytes (f : List W64 → List W64) (rate : Nat) (D : Byte) (m : Bytes) : Bytes :=
  let input := m ++ [D]
  let k := (input.length - 1) / rate
  let S := (blocks rate k input).foldl (fun S B => onBytes f (xorBytes S (B ++ List.replicate (200 - rate) 0)))
    (List.replicate 200 0)
  let last := input.drop (k * rate)
  let S := xorBytes S (last ++ List.replicate (200 - last.length) 0)
  let S := xorBytes S (List.replicate (rate - 1) 0 ++ [0x80] ++ List.replicate (200 - rate) 0)
  onBytes f S

/-- RFC 9861 §2.2, squeezing part: `n` rate-sized pieces. -/
def squeezeBytes (f : List W64 → List W64) (rate : Nat) : Nat → Bytes → Bytes
  | 0, _ => []
  | n + 1, S => S.take rate ++ squeezeBytes f rate n (onBytes f S)

/-- Byte-level sponge with separation byte `D`. -/
def spongeBytes (f : List W64 → List W64) (rate : Nat) (D : Byte) (m : Bytes) (L : Nat) : Bytes :=
  (squeezeBytes f rate (L / rate + 1) (absorbBytes f rate D m)).take L

/-- RFC 9861 §2.2: TurboSHAKE128 / TurboSHAKE256. -/
def turboShake (s : Nat) (m : Bytes) (D : Byte) (L : Nat) : Bytes := spongeBytes (keccakP 12) (200 - s / 4) D m L

end Keccak

/-! ### RFC 9861: KT128 -/
namespace K12

/-- §3.3: `length_encode(x)`: minimal big-endian bytes (none for 0) followed by their number. -/
def lengthEncode (x : Nat) : Bytes :=
  let n := Keccak.digits256 x x
  beBytes n x ++ [BitVec.ofNat 8 n]

/-- Cut into pieces of 8192 bytes, the last one possibly shorter (one empty piece for the empty string). -/
def cut (s : Bytes) : List Bytes :=
  let k := (s.length - 1) / 8192
  blocks 8192 k s ++ [s.drop (k * 8192)]

/-- §3.2: KT128(M, C, L). -/
def kt128 (m c : Bytes) (L : Nat) : Bytes :=
  let S := m ++ c ++ lengthEncode c.length
  if S.length ≤ 8192 then Keccak.turboShake 128 S 0x07 L
  else
    match cut S with
    | [] => []
    | S0 :: rest =>
      let cvs := rest.map fun Si => Keccak.turboShake 128 Si 0x0B 32
      let final := S0 ++ [0x03, 0, 0, 0, 0, 0, 0, 0] ++ cvs.flatten ++ lengthEncode rest.length ++ [0xff, 0xff]
      Keccak.turboShake 128 final 0x06 L

end K12
end Hashes.Spec
