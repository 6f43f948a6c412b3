import Verif.Base.Raw
import Verif.Model.Sha2Riscv
/-
The RISC-V backends of SHA-256 and SHA-512 once more, statement by statement, with the run-time checks of Rust and its rules for raw
pointers; /repo/sha2/src/sha256/riscv_zknh.rs, riscv_zknh_compact.rs, riscv_zknh_utils.rs and the same files under
/repo/sha2/src/sha512.  Line numbers are those of the sha256 files unless marked.
-/
namespace Hashes.Sha2Riscv
open Riscv Rs

/-- The rule for a load written in assembly: an aligned word of `k` bytes that has at least one byte in the `n` bytes from `p`. -/
def asmLoad (k p n a : Nat) : Option Unit := check (a % k = 0 ∧ p < a + k ∧ a < p + n)

/-- `load_aligned_block`, riscv_zknh_utils.rs:12-22 (sha512/…:12-24 on RV32, where the pointer is turned into a reference to an array,
and :26-36 on RV64). -/
def loadAlignedChk {w : Nat} (n : Nat) (fin : BitVec w → BitVec w) (m : Mem) (r : Raw.Region) (p : Nat) : Option (List (BitVec w)) := do
  check (p % (w / 8) = 0)
  loop n (List.replicate n 0) fun res i => do
    let q ← Raw.add r p (w / 8 * i)
    Raw.deref r (w / 8) q (w / 8)
    upd res i (fin (read w m q))

/-- The pointer `bp.add(1 + i)` of riscv_zknh_utils.rs:60; with `strict = false` as if it were written `bp.wrapping_add(1 + i)`. -/
def bpAdd (strict : Bool) (r : Raw.Region) (bp n : Nat) : Option Nat := if strict then Raw.add r bp n else some (bp + n)

/-- `load_unaligned_block`, riscv_zknh_utils.rs:38-80 (sha512/…:38-86 on RV32, :88-129 on RV64). -/
def loadUnalignedChk {w : Nat} (strict : Bool) (xlen n : Nat) (fin : BitVec w → BitVec w) (m : Mem) (r : Raw.Region) (p : Nat) :
    Option (List (BitVec w)) := do
  let offset := p % (w / 8)
  check (offset ≠ 0)
  let off1 := 8 * offset % w
  let off2 ← usub w off1
  let off2 := off2 % w
  let bp := p - offset
  asmLoad (w / 8) p (w / 8 * n) bp
  let left := loadSrl xlen w m bp off1
  let n1 ← usub n 1
  let x ← loop n1 (left, List.replicate n 0) fun (x : BitVec w × List (BitVec w)) i => do
    let q ← bpAdd strict r bp (w / 8 * (1 + i))
    Raw.deref r (w / 8) q (w / 8)
    let right := read w m q
    let hi ← shl right off2
    let res ← upd x.2 i (fin (x.1 ||| hi))
    let left ← shr right off1
    pure (left, res)
  asmLoad (w / 8) p (w / 8 * n) (bp + w / 8 * n)
  let right := loadSll xlen w m (bp + w / 8 * n) off2
  upd x.2 n1 (fin (x.1 ||| right))

/-- `load_block`, riscv_zknh_utils.rs:3-10 (sha512/…:3-10) -/
def loadChk {w : Nat} (strict : Bool) (xlen n : Nat) (fin : BitVec w → BitVec w) (m : Mem) (r : Raw.Region) (p : Nat) :
    Option (List (BitVec w)) :=
  if p % (w / 8) = 0 then loadAlignedChk n fin m r p else loadUnalignedChk strict xlen n fin m r p

/-- The final loop on RV32, sha512/riscv_zknh_utils.rs:18-22 and :79-84. -/
def joinChk (b : List W32) : Option (List W64) :=
  loop 16 (List.replicate 16 0) fun res i => do
    let a ← idx b (2 * i)
    let c ← idx b (2 * i + 1)
    upd res i ((toBe a).setWidth 64 <<< 32 ||| (toBe c).setWidth 64)

def loadBlock32Chk (strict : Bool) (xlen : Nat) (m : Mem) (r : Raw.Region) (p : Nat) : Option (List W32) := loadChk strict xlen 16 toBe m r p
def loadBlock64Chk (strict : Bool) (m : Mem) (r : Raw.Region) (p : Nat) : Option (List W64) := loadChk strict 64 16 toBe m r p
def loadBlock64Chk' (strict : Bool) (m : Mem) (r : Raw.Region) (p : Nat) : Option (List W64) := do
  let b ← loadChk strict 32 32 id m r p
  joinChk b

/-- `opaque_load::<R>`, riscv_zknh_utils.rs:82-97 (sha512/…:131-160): `assert!`, then a load of `k[R]` from the memory of the slice,
which is `8 * R .. 8 * R + 8` (or `4 * R ..`) of its bytes. -/
def opaqueLoad {w : Nat} (o : Ops w) (k : List (BitVec w)) (R : Nat) : Option (BitVec w) := do
  check (R < k.length)
  Raw.deref ⟨0, w / 8 * k.length⟩ 1 (w / 8 * R) (w / 8)
  pure (o.load k R)

/-- The common text of `round`, riscv_zknh.rs:24-45 and riscv_zknh_compact.rs:24-46. -/
def roundChk {w : Nat} (o : Ops w) (s : List (BitVec w)) (r : Nat) (k m : Option (BitVec w)) : Option (List (BitVec w)) := do
  let n ← usub o.K.length r
  let a := (n + 0) % 8
  let b := (n + 1) % 8
  let c := (n + 2) % 8
  let d := (n + 3) % 8
  let e := (n + 4) % 8
  let f := (n + 5) % 8
  let g := (n + 6) % 8
  let h := (n + 7) % 8
  let sh ← idx s h
  let se ← idx s e
  let sf ← idx s f
  let sg ← idx s g
  let k ← k
  let m ← m
  let s ← upd s h (sh + o.sum1 se + ch se sf sg + k + m)
  let sd ← idx s d
  let sh ← idx s h
  let s ← upd s d (sd + sh)
  let sh ← idx s h
  let sa ← idx s a
  let sb ← idx s b
  let sc ← idx s c
  upd s h (sh + o.sum0 sa + maj sa sb sc)

/-- `round::<R>`, riscv_zknh.rs:24-45 -/
def roundUChk {w : Nat} (o : Ops w) (k b s : List (BitVec w)) (R : Nat) : Option (List (BitVec w)) :=
  roundChk o s R (opaqueLoad o k R) (idx b R)

/-- The schedule, riscv_zknh.rs:50-53 with `R` for `r % 16`, and riscv_zknh_compact.rs:48-54. -/
def scheduleChk {w : Nat} (o : Ops w) (b : List (BitVec w)) (r : Nat) : Option (List (BitVec w)) := do
  let x ← idx b (r % 16)
  let y ← idx b ((r + 14) % 16)
  let z ← idx b ((r + 9) % 16)
  let t ← idx b ((r + 1) % 16)
  upd b (r % 16) (x + o.sig1 y + z + o.sig0 t)

/-- `state[i] = state[i].wrapping_add(s[i])`, riscv_zknh.rs:99-101 -/
def addStateChk {w : Nat} (state s : List (BitVec w)) : Option (List (BitVec w)) :=
  loop 8 state fun state i => do
    let x ← idx state i
    let y ← idx s i
    upd state i (x + y)

/-- `compress_block`, riscv_zknh.rs:56-102 (`R` runs over 0..16 in the text) -/
def compressBlockUChk {w : Nat} (o : Ops w) (state block : List (BitVec w)) : Option (List (BitVec w)) := do
  let x ← loop o.groups (state, block) fun x i => do
    let k ← slice o.K (16 * i) o.K.length
    loop 16 x fun x R => do
      let s ← roundUChk o k x.2 x.1 R
      let b ← scheduleChk o x.2 R
      pure (s, b)
  let k ← slice o.K (16 * o.groups) o.K.length
  let s ← loop 16 x.1 fun s R => roundUChk o k x.2 s R
  addStateChk state s

/-- `if r < 48 { schedule(&mut block, r) }`, riscv_zknh_compact.rs:62-64 -/
def scheduleIfChk {w : Nat} (o : Ops w) (b : List (BitVec w)) (r : Nat) : Option (List (BitVec w)) :=
  if r < 16 * o.groups then scheduleChk o b r else some b

/-- `compress_block`, riscv_zknh_compact.rs:56-70 -/
def compressBlockCChk {w : Nat} (o : Ops w) (state block : List (BitVec w)) : Option (List (BitVec w)) := do
  let x ← loop (16 * (o.groups + 1)) (state, block) fun (x : List (BitVec w) × List (BitVec w)) r => do
    let s ← roundChk o x.1 r (idx o.K r) (idx x.2 (r % 16))
    let b ← scheduleIfChk o x.2 r
    pure (s, b)
  addStateChk state x.1

/-- `compress`, riscv_zknh.rs:104-108: the object `r` holds the `n` blocks at `p`. -/
def compressChk {w : Nat} (bytes : Nat) (load : Mem → Raw.Region → Nat → Option (List (BitVec w)))
    (compressBlock : List (BitVec w) → List (BitVec w) → Option (List (BitVec w))) (m : Mem) (r : Raw.Region) (p n : Nat)
    (state : List (BitVec w)) : Option (List (BitVec w)) :=
  loop n state fun s i => do
    let b ← load m r (p + bytes * i)
    compressBlock s b

section
variable (m : Mem) (r : Raw.Region) (p n : Nat)

/-- `sha256::riscv_zknh::compress`; in this and the five below `strict` says whether the pointer in `load_unaligned_block` is moved
with `add` (as it is) or `wrapping_add`. -/
def zknh256 (strict : Bool) (xlen : Nat) := compressChk 64 (loadBlock32Chk strict xlen) (compressBlockUChk ops256) m r p n
/-- `sha256::riscv_zknh_compact::compress` -/
def zknh256Compact (strict : Bool) (xlen : Nat) := compressChk 64 (loadBlock32Chk strict xlen) (compressBlockCChk ops256) m r p n
/-- `sha512::riscv_zknh::compress` on RV64 -/
def zknh512 (strict : Bool) := compressChk 128 (loadBlock64Chk strict) (compressBlockUChk ops512) m r p n
/-- `sha512::riscv_zknh_compact::compress` on RV64 -/
def zknh512Compact (strict : Bool) := compressChk 128 (loadBlock64Chk strict) (compressBlockCChk ops512) m r p n
/-- `sha512::riscv_zknh::compress` on RV32 -/
def zknh512' (strict : Bool) := compressChk 128 (loadBlock64Chk' strict) (compressBlockUChk ops512') m r p n
/-- `sha512::riscv_zknh_compact::compress` on RV32 -/
def zknh512Compact' (strict : Bool) := compressChk 128 (loadBlock64Chk' strict) (compressBlockCChk ops512') m r p n

end

end Hashes.Sha2Riscv
