import Verif.Base.Simd
/-
Semantics of the AArch64 intrinsics used by /repo/sha1/src/compress/aarch64.rs,
/repo/sha2/src/sha256/aarch64.rs and /repo/sha2/src/sha512/aarch64.rs, transcribed from the pseudocode of the
Arm Architecture Reference Manual (instruction named in each comment; the intrinsic's arguments are the
instruction's operands d, n, m in order).  Part of the trusted base; written without reference to FIPS 180-4.
`X<31:0>` in the pseudocode is lane 0.
-/
namespace Hashes.Arm
open Simd

/-- A register as its four 32-bit elements. -/
def elems (x : V128) : V4 W32 := ⟨lane 32 0 x, lane 32 1 x, lane 32 2 x, lane 32 3 x⟩
/-- The register with the given four 32-bit elements. -/
def ofElems (v : V4 W32) : V128 := pack 32 v.get

/-- `vdupq_n_u32` (DUP) -/
def vdupq_n_u32 (x : W32) : V128 := pack 32 fun _ => x
/-- `vaddq_u32` (ADD Vd.4S) -/
def vaddq_u32 (a b : V128) : V128 := zip 32 (· + ·) a b
/-- `vaddq_u64` (ADD Vd.2D) -/
def vaddq_u64 (a b : V128) : V128 := zip 64 (· + ·) a b
/-- `vgetq_lane_u32` -/
def vgetq_lane_u32 (a : V128) (i : Nat) : W32 := lane 32 i a
/-- `vrev32q_u8` (REV32 Vd.16B): reverse the bytes of every 32-bit element. -/
def vrev32q_u8 (a : V128) : V128 := pack 8 fun i => lane 8 (4 * (i / 4) + (3 - i % 4)) a
/-- `vrev64q_u8` (REV64 Vd.16B): reverse the bytes of every 64-bit element. -/
def vrev64q_u8 (a : V128) : V128 := pack 8 fun i => lane 8 (8 * (i / 8) + (7 - i % 8)) a
/-- `vextq_u64(a, b, n)` (EXT): elements `n, n+1` of the concatenation of `a` (low) and `b` (high). -/
def vextq_u64 (a b : V128) (n : Nat) : V128 :=
  pack 64 fun i => if n + i < 2 then lane 64 (n + i) a else lane 64 (n + i - 2) b

/-- `SHAchoose` -/
def shaChoose (x y z : W32) : W32 := ((y ^^^ z) &&& x) ^^^ z
/-- `SHAmajority` -/
def shaMajority (x y z : W32) : W32 := (x &&& y) ||| ((x ||| y) &&& z)
/-- `SHAparity` -/
def shaParity (x y z : W32) : W32 := x ^^^ y ^^^ z
/-- `SHAhashSIGMA0` -/
def shaHashSIGMA0 (x : W32) : W32 := x.rotateRight 2 ^^^ x.rotateRight 13 ^^^ x.rotateRight 22
/-- `SHAhashSIGMA1` -/
def shaHashSIGMA1 (x : W32) : W32 := x.rotateRight 6 ^^^ x.rotateRight 11 ^^^ x.rotateRight 25

/-! ### SHA-1 instructions -/

/-- One iteration of the loop of SHA1C/SHA1P/SHA1M on `(Y, X)`:
`t = f(X<63:32>, X<95:64>, X<127:96>); Y = Y + ROL(X<31:0>, 5) + t + Elem[W, e]; X<63:32> = ROL(X<63:32>, 30);
<Y, X> = ROL(Y : X, 32)`. -/
def sha1Step (f : W32 → W32 → W32 → W32) (s : W32 × V4 W32) (w : W32) : W32 × V4 W32 :=
  let X := s.2
  let t := f X.x1 X.x2 X.x3
  let Y := s.1 + X.x0.rotateLeft 5 + t + w
  let X1 := X.x1.rotateLeft 30
  (X.x3, ⟨Y, X.x0, X1, X.x2⟩)

/-- Common shape of SHA1C, SHA1P, SHA1M. -/
def sha1Hash (f : W32 → W32 → W32 → W32) (d : V128) (n : W32) (m : V128) : V128 :=
  ofElems ((elems m).toList.foldl (sha1Step f) (n, elems d)).2

/-- `vsha1cq_u32` (SHA1C) -/
def vsha1cq_u32 := sha1Hash shaChoose
/-- `vsha1pq_u32` (SHA1P) -/
def vsha1pq_u32 := sha1Hash shaParity
/-- `vsha1mq_u32` (SHA1M) -/
def vsha1mq_u32 := sha1Hash shaMajority
/-- `vsha1h_u32` (SHA1H) -/
def vsha1h_u32 (n : W32) : W32 := n.rotateLeft 30
/-- `vsha1su0q_u32` (SHA1SU0): `(n<63:0> : d<127:64>) EOR d EOR m`. -/
def vsha1su0q_u32 (d n m : V128) : V128 :=
  pack 32 fun i => (if i < 2 then lane 32 (2 + i) d else lane 32 (i - 2) n) ^^^ lane 32 i d ^^^ lane 32 i m
/-- `vsha1su1q_u32` (SHA1SU1): `T = d EOR LSR(n, 32)`, every element rotated left by 1, the top one additionally
xored with `ROL(T<31:0>, 2)`. -/
def vsha1su1q_u32 (d n : V128) : V128 :=
  let T := d ^^^ n >>> 32
  pack 32 fun i =>
    if i < 3 then (lane 32 i T).rotateLeft 1 else (lane 32 3 T).rotateLeft 1 ^^^ (lane 32 0 T).rotateLeft 2

/-! ### SHA-256 instructions -/

/-- One iteration of `SHA256hash` on `(Y, X)`. -/
def sha256Step (s : V4 W32 × V4 W32) (w : W32) : V4 W32 × V4 W32 :=
  let Y := s.1; let X := s.2
  let chs := shaChoose Y.x0 Y.x1 Y.x2
  let maj := shaMajority X.x0 X.x1 X.x2
  let t := Y.x3 + shaHashSIGMA1 Y.x0 + chs + w
  let X3 := t + X.x3
  let Y3 := t + shaHashSIGMA0 X.x0 + maj
  -- <Y, X> = ROL(Y : X, 32)
  (⟨X3, Y.x0, Y.x1, Y.x2⟩, ⟨Y3, X.x0, X.x1, X.x2⟩)

/-- `SHA256hash(X, Y, W, part1)` -/
def sha256Hash (X Y W : V128) (part1 : Bool) : V128 :=
  let s := (elems W).toList.foldl sha256Step (elems Y, elems X)
  ofElems (if part1 then s.2 else s.1)

/-- `vsha256hq_u32` (SHA256H) -/
def vsha256hq_u32 (d n m : V128) : V128 := sha256Hash d n m true
/-- `vsha256h2q_u32` (SHA256H2) -/
def vsha256h2q_u32 (d n m : V128) : V128 := sha256Hash n d m false

/-- `vsha256su0q_u32` (SHA256SU0): `T = n<31:0> : d<127:32>`. -/
def vsha256su0q_u32 (d n : V128) : V128 :=
  pack 32 fun e =>
    let elt := if e < 3 then lane 32 (e + 1) d else lane 32 0 n
    let elt := elt.rotateRight 7 ^^^ elt.rotateRight 18 ^^^ elt >>> 3
    elt + lane 32 e d

/-- `vsha256su1q_u32` (SHA256SU1): `T0 = m<31:0> : n<127:32>`, `T1 = m<127:64>` for the two low elements, the two
low result elements for the two high ones. -/
def vsha256su1q_u32 (d n m : V128) : V128 :=
  let T0 := fun e => if e < 3 then lane 32 (e + 1) n else lane 32 0 m
  let f := fun (elt : W32) e =>
    (elt.rotateRight 17 ^^^ elt.rotateRight 19 ^^^ elt >>> 10) + lane 32 e d + T0 e
  let r0 := f (lane 32 2 m) 0
  let r1 := f (lane 32 3 m) 1
  let r2 := f r0 2
  let r3 := f r1 3
  ofElems ⟨r0, r1, r2, r3⟩

/-! ### SHA-512 instructions -/

/-- `vsha512hq_u64` (SHA512H) -/
def vsha512hq_u64 (d n m : V128) : V128 :=
  let W0 := lane 64 0 d; let W1 := lane 64 1 d
  let X0 := lane 64 0 n; let X1 := lane 64 1 n
  let Y0 := lane 64 0 m; let Y1 := lane 64 1 m
  let sigma := fun (y : W64) => y.rotateRight 14 ^^^ y.rotateRight 18 ^^^ y.rotateRight 41
  let v1 := (Y1 &&& X0) ^^^ (~~~Y1 &&& X1)
  let v1 := v1 + sigma Y1 + W1
  let tmp := v1 + Y0
  let v0 := (tmp &&& Y1) ^^^ (~~~tmp &&& X0)
  let v0 := v0 + sigma tmp + W0
  pack 64 fun i => if i = 0 then v0 else v1

/-- `vsha512h2q_u64` (SHA512H2) -/
def vsha512h2q_u64 (d n m : V128) : V128 :=
  let W0 := lane 64 0 d; let W1 := lane 64 1 d
  let X0 := lane 64 0 n
  let Y0 := lane 64 0 m; let Y1 := lane 64 1 m
  let sigma := fun (y : W64) => y.rotateRight 28 ^^^ y.rotateRight 34 ^^^ y.rotateRight 39
  let v1 := (X0 &&& Y1) ^^^ (X0 &&& Y0) ^^^ (Y1 &&& Y0)
  let v1 := v1 + sigma Y0 + W1
  let v0 := (v1 &&& Y0) ^^^ (v1 &&& Y1) ^^^ (Y1 &&& Y0)
  let v0 := v0 + sigma v1 + W0
  pack 64 fun i => if i = 0 then v0 else v1

/-- `vsha512su0q_u64` (SHA512SU0) -/
def vsha512su0q_u64 (d n : V128) : V128 :=
  let sig0 := fun (x : W64) => x.rotateRight 1 ^^^ x.rotateRight 8 ^^^ x >>> 7
  let v0 := lane 64 0 d + sig0 (lane 64 1 d)
  let v1 := lane 64 1 d + sig0 (lane 64 0 n)
  pack 64 fun i => if i = 0 then v0 else v1

/-- `vsha512su1q_u64` (SHA512SU1) -/
def vsha512su1q_u64 (d n m : V128) : V128 :=
  let sig1 := fun (x : W64) => x.rotateRight 19 ^^^ x.rotateRight 61 ^^^ x >>> 6
  let v1 := lane 64 1 d + sig1 (lane 64 1 n) + lane 64 1 m
  let v0 := lane 64 0 d + sig1 (lane 64 0 n) + lane 64 0 m
  pack 64 fun i => if i = 0 then v0 else v1

end Hashes.Arm
