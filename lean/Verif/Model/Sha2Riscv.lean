import Verif.Isa.Riscv
import Verif.Model.Sha256
import Verif.Model.Sha512
/-
Model of the RISC-V Zknh backends of SHA-256 and SHA-512: /repo/sha2/src/sha256/riscv_zknh.rs,
riscv_zknh_compact.rs, riscv_zknh_utils.rs and the same three files under /repo/sha2/src/sha512.

The SHA-256 and SHA-512 files are the same text with another word type, other intrinsics and other loop bounds; the
model has one definition, parameterised by `Ops`.  Line numbers are those of the sha256 files unless marked.
-/
namespace Hashes.Sha2Riscv
open Riscv

/-- What differs between the two hash functions and between RV32 and RV64. -/
structure Ops (w : Nat) where
  sum0 : BitVec w → BitVec w
  sum1 : BitVec w → BitVec w
  sig0 : BitVec w → BitVec w
  sig1 : BitVec w → BitVec w
  /-- `K32` / `K64` -/
  K : List (BitVec w)
  /-- number of 16-round groups with message schedule: 3 / 4 (riscv_zknh.rs:61, sha512/riscv_zknh.rs:92) -/
  groups : Nat
  /-- `opaque_load::<R>(k)` -/
  load : List (BitVec w) → Nat → BitVec w

/-- `ch`, riscv_zknh.rs:14-17 -/
def ch {w : Nat} (x y z : BitVec w) : BitVec w := (x &&& y) ^^^ (~~~x &&& z)
/-- `maj`, riscv_zknh.rs:19-22 -/
def maj {w : Nat} (x y z : BitVec w) : BitVec w := (x &&& y) ^^^ (x &&& z) ^^^ (y &&& z)

/-- The common text of `round` in riscv_zknh.rs:24-45 and riscv_zknh_compact.rs:25-46, given `n = K.len() - r`, the
round constant and the message word. -/
def round {w : Nat} (o : Ops w) (s : Arr w 8) (n : Nat) (k m : BitVec w) : Arr w 8 :=
  let a := (n + 0) % 8
  let b := (n + 1) % 8
  let c := (n + 2) % 8
  let d := (n + 3) % 8
  let e := (n + 4) % 8
  let f := (n + 5) % 8
  let g := (n + 6) % 8
  let h := (n + 7) % 8
  let s := s.set h (s.get h + o.sum1 (s.get e) + ch (s.get e) (s.get f) (s.get g) + k + m)
  let s := s.set d (s.get d + s.get h)
  s.set h (s.get h + o.sum0 (s.get a) + maj (s.get a) (s.get b) (s.get c))

/-! ### riscv_zknh.rs -/

/-- `round::<R>`, riscv_zknh.rs:24-45 -/
def roundU {w : Nat} (o : Ops w) (k : List (BitVec w)) (b : Arr w 16) (s : Arr w 8) (R : Nat) : Arr w 8 :=
  round o s (o.K.length - R) (o.load k R) (b.get R)

/-- `round_schedule::<R>`, riscv_zknh.rs:47-54 -/
def roundScheduleU {w : Nat} (o : Ops w) (k : List (BitVec w)) (x : Arr w 8 × Arr w 16) (R : Nat) : Arr w 8 × Arr w 16 :=
  let s := roundU o k x.2 x.1 R
  let b := x.2
  (s, b.set R (b.get R + o.sig1 (b.get ((R + 14) % 16)) + b.get ((R + 9) % 16) + o.sig0 (b.get ((R + 1) % 16))))

/-- `for i in 0..8 { state[i] = state[i].wrapping_add(s[i]) }`, riscv_zknh.rs:99-101 -/
def addState {w : Nat} (state s : Arr w 8) : Arr w 8 := Arr.ofFn 8 fun i => state.get i + s.get i

/-- `compress_block`, riscv_zknh.rs:56-102 -/
def compressBlockU {w : Nat} (o : Ops w) (state : Arr w 8) (block : Arr w 16) : Arr w 8 :=
  let x := (List.range o.groups).foldl (fun x i =>
    (List.range 16).foldl (roundScheduleU o (o.K.drop (16 * i))) x) (state, block)
  let s := (List.range 16).foldl (roundU o (o.K.drop (16 * o.groups)) x.2) x.1
  addState state s

/-! ### riscv_zknh_compact.rs -/

/-- `round`, riscv_zknh_compact.rs:24-46 -/
def roundC {w : Nat} (o : Ops w) (s : Arr w 8) (b : Arr w 16) (r : Nat) : Arr w 8 :=
  round o s (o.K.length - r) (o.K.getD r 0) (b.get (r % 16))

/-- `schedule`, riscv_zknh_compact.rs:48-54 -/
def scheduleC {w : Nat} (o : Ops w) (b : Arr w 16) (r : Nat) : Arr w 16 :=
  b.set (r % 16) (b.get (r % 16) + o.sig1 (b.get ((r + 14) % 16)) + b.get ((r + 9) % 16) + o.sig0 (b.get ((r + 1) % 16)))

/-- `compress_block`, riscv_zknh_compact.rs:56-70; the loop bounds are 64/48 (80/64 in SHA-512), here `16 (groups+1)`
and `16 groups`. -/
def compressBlockC {w : Nat} (o : Ops w) (state : Arr w 8) (block : Arr w 16) : Arr w 8 :=
  let x := (List.range (16 * (o.groups + 1))).foldl (fun (x : Arr w 8 × Arr w 16) r =>
    (roundC o x.1 x.2 r, if r < 16 * o.groups then scheduleC o x.2 r else x.2)) (state, block)
  addState state x.1

/-! ### Loading a block, riscv_zknh_utils.rs

`fin` is `to_be` except in the RV32 version of SHA-512, which keeps native words first (sha512/…_utils.rs:46-77). -/

/-- `load_aligned_block`, riscv_zknh_utils.rs:12-22 (also sha512/…:26-36). -/
def loadAligned {w : Nat} (n : Nat) (fin : BitVec w → BitVec w) (m : Mem) (p : Nat) : Arr w n :=
  Arr.ofFn n fun i => fin (read w m (p + w / 8 * i))

/-- `load_unaligned_block`, riscv_zknh_utils.rs:38-80 (sha512/…:38-86 on RV32, :88-129 on RV64): read aligned words
around the block and funnel-shift.  The first and the last read are inline assembly. -/
def loadUnaligned {w : Nat} (xlen n : Nat) (fin : BitVec w → BitVec w) (m : Mem) (p : Nat) : Arr w n :=
  let offset := p % (w / 8)
  let off1 := 8 * offset % w
  let off2 := (w - off1) % w
  let bp := p - offset
  let left : BitVec w := loadSrl xlen w m bp off1
  let res : Arr w n := Arr.ofFn n fun _ => 0
  let x := (List.range (n - 1)).foldl (fun (x : BitVec w × Arr w n) i =>
    let right := read w m (bp + w / 8 * (1 + i))
    (right >>> off1, x.2.set i (fin (x.1 ||| right <<< off2)))) (left, res)
  let right := loadSll xlen w m (bp + w / 8 * n) off2
  x.2.set (n - 1) (fin (x.1 ||| right))

/-- Two big-endian 32-bit halves of every 64-bit word (sha512/riscv_zknh_utils.rs:18-22 and :79-84). -/
def join (b : Arr 32 32) : Arr 64 16 :=
  Arr.ofFn 16 fun i =>
    let a := (toBe (b.get (2 * i))).setWidth 64
    let c := (toBe (b.get (2 * i + 1))).setWidth 64
    a <<< 32 ||| c

/-- `load_block`, riscv_zknh_utils.rs:3-10; `xlen` is 32 or 64. -/
def loadBlock32 (xlen : Nat) (m : Mem) (p : Nat) : Arr 32 16 :=
  if p % 4 = 0 then loadAligned 16 toBe m p else loadUnaligned xlen 16 toBe m p

/-- `load_block` of SHA-512 on RV64, sha512/riscv_zknh_utils.rs:3-10 (`usize` is 8 bytes). -/
def loadBlock64 (m : Mem) (p : Nat) : Arr 64 16 :=
  if p % 8 = 0 then loadAligned 16 toBe m p else loadUnaligned 64 16 toBe m p

/-- `load_block` of SHA-512 on RV32, sha512/riscv_zknh_utils.rs:3-10 (`usize` is 4 bytes). -/
def loadBlock64' (m : Mem) (p : Nat) : Arr 64 16 :=
  join (if p % 4 = 0 then loadAligned 32 id m p else loadUnaligned 32 32 id m p)

/-! ### The instances -/

/-- SHA-256 (`opaque_load`: `lw`/`lwu` of `k[R]`, riscv_zknh_utils.rs:82-97). -/
def ops256 : Ops 32 :=
  { sum0 := sha256sum0, sum1 := sha256sum1, sig0 := sha256sig0, sig1 := sha256sig1, K := Sha256.K32, groups := 3
    load := fun k R => wordLE 32 (bytesOfWordsLE k) R }

/-- SHA-512 on RV64 (`opaque_load`: `ld`, sha512/riscv_zknh_utils.rs:133-146). -/
def ops512 : Ops 64 :=
  { sum0 := sha512sum0, sum1 := sha512sum1, sig0 := sha512sig0, sig1 := sha512sig1, K := Sha512.K64, groups := 4
    load := fun k R => wordLE 64 (bytesOfWordsLE k) R }

/-- The pattern of the RV32 functions, e.g. `sha512sum0`, sha512/riscv_zknh.rs:14-20. -/
def split (h l : W32 → W32 → W32) (x : W64) : W64 :=
  let hi := (x >>> 32).setWidth 32
  let lo := x.setWidth 32
  let a := h hi lo
  let b := l lo hi
  a.setWidth 64 <<< 32 ||| b.setWidth 64

/-- SHA-512 on RV32: the four functions of sha512/riscv_zknh.rs:14-44, and `opaque_load` from two `lw`
(sha512/riscv_zknh_utils.rs:147-160). -/
def ops512' : Ops 64 :=
  { sum0 := split sha512sum0r sha512sum0r, sum1 := split sha512sum1r sha512sum1r
    sig0 := split sha512sig0h sha512sig0l, sig1 := split sha512sig1h sha512sig1l, K := Sha512.K64, groups := 4
    load := fun k R =>
      let lo := wordLE 32 (bytesOfWordsLE k) (2 * R)
      let hi := wordLE 32 (bytesOfWordsLE k) (2 * R + 1)
      hi.setWidth 64 <<< 32 ||| lo.setWidth 64 }

/-- `compress`, riscv_zknh.rs:104-108 and riscv_zknh_compact.rs:72-76: the `n` blocks of `bytes` bytes stored from
address `p`. -/
def compress {w : Nat} (bytes : Nat) (load : Mem → Nat → Arr w 16) (compressBlock : Arr w 8 → Arr w 16 → Arr w 8)
    (m : Mem) (p n : Nat) (state : Arr w 8) : Arr w 8 :=
  (List.range n).foldl (fun s i => compressBlock s (load m (p + bytes * i))) state

/-- `sha256::riscv_zknh::compress` on RV32/RV64 -/
def compress256 (xlen : Nat) := compress 64 (loadBlock32 xlen) (compressBlockU ops256)
/-- `sha256::riscv_zknh_compact::compress` on RV32/RV64 -/
def compress256Compact (xlen : Nat) := compress 64 (loadBlock32 xlen) (compressBlockC ops256)
/-- `sha512::riscv_zknh::compress` on RV64 -/
def compress512 := compress 128 loadBlock64 (compressBlockU ops512)
/-- `sha512::riscv_zknh_compact::compress` on RV64 -/
def compress512Compact := compress 128 loadBlock64 (compressBlockC ops512)
/-- `sha512::riscv_zknh::compress` on RV32 -/
def compress512' := compress 128 loadBlock64' (compressBlockU ops512')
/-- `sha512::riscv_zknh_compact::compress` on RV32 -/
def compress512Compact' := compress 128 loadBlock64' (compressBlockC ops512')

end Hashes.Sha2Riscv
