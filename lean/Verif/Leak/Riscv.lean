import Verif.Base.LeakRaw
import Verif.Checked.Riscv
/- Riscv with what an observer of the memory accesses and branches sees (Base/Leak.lean); written by tools/gen_leak.py from
Verif/Checked/Riscv.lean, which says what is modelled. -/
namespace Hashes.Sha2Riscv
open Riscv Leak

/-- The rule for a load written in assembly: an aligned word of `k` bytes that has at least one byte in the `n` bytes from `p`. -/
def asmLoadL (k p n a : Nat) : Leak Unit := Leak.emit (.index a) (Rs.check (a % k = 0 ∧ p < a + k ∧ a < p + n))

/-- `load_aligned_block`, riscv_zknh_utils.rs:12-22 (sha512/…:12-24 on RV32, where the pointer is turned into a reference to an array,
and :26-36 on RV64). -/
def loadAlignedL {w : Nat} (n : Nat) (fin : BitVec w → BitVec w) (m : Mem) (r : Raw.Region) (p : Nat) : Leak (List (BitVec w)) := do
  check (p % (w / 8) = 0)
  loop n (List.replicate n 0) fun res i => do
    let q ← Raw.addL r p (w / 8 * i)
    Raw.derefL r (w / 8) q (w / 8)
    upd res i (fin (read w m q))

/-- The pointer `bp.add(1 + i)` of riscv_zknh_utils.rs:60; with `strict = false` as if it were written `bp.wrapping_add(1 + i)`. -/
def bpAddL (strict : Bool) (r : Raw.Region) (bp n : Nat) : Leak Nat := Leak.seen (Sha2Riscv.bpAdd strict r bp n)

/-- `load_unaligned_block`, riscv_zknh_utils.rs:38-80 (sha512/…:38-86 on RV32, :88-129 on RV64). -/
def loadUnalignedL {w : Nat} (strict : Bool) (xlen n : Nat) (fin : BitVec w → BitVec w) (m : Mem) (r : Raw.Region) (p : Nat) :
    Leak (List (BitVec w)) := do
  let offset := p % (w / 8)
  check (offset ≠ 0)
  let off1 := 8 * offset % w
  let off2 ← usub w off1
  let off2 := off2 % w
  let bp := p - offset
  asmLoadL (w / 8) p (w / 8 * n) bp
  let left := loadSrl xlen w m bp off1
  let n1 ← usub n 1
  let x ← loop n1 (left, List.replicate n 0) fun (x : BitVec w × List (BitVec w)) i => do
    let q ← bpAddL strict r bp (w / 8 * (1 + i))
    Raw.derefL r (w / 8) q (w / 8)
    let right := read w m q
    let hi ← shl right off2
    let res ← upd x.2 i (fin (x.1 ||| hi))
    let left ← shr right off1
    pure (left, res)
  asmLoadL (w / 8) p (w / 8 * n) (bp + w / 8 * n)
  let right := loadSll xlen w m (bp + w / 8 * n) off2
  upd x.2 n1 (fin (x.1 ||| right))

/-- `load_block`, riscv_zknh_utils.rs:3-10 (sha512/…:3-10) -/
def loadL {w : Nat} (strict : Bool) (xlen n : Nat) (fin : BitVec w → BitVec w) (m : Mem) (r : Raw.Region) (p : Nat) :
    Leak (List (BitVec w)) :=
  branch (p % (w / 8) = 0) (loadAlignedL n fin m r p) (loadUnalignedL strict xlen n fin m r p)

/-- The final loop on RV32, sha512/riscv_zknh_utils.rs:18-22 and :79-84. -/
def joinL (b : List W32) : Leak (List W64) :=
  loop 16 (List.replicate 16 0) fun res i => do
    let a ← idx b (2 * i)
    let c ← idx b (2 * i + 1)
    upd res i ((toBe a).setWidth 64 <<< 32 ||| (toBe c).setWidth 64)

def loadBlock32L (strict : Bool) (xlen : Nat) (m : Mem) (r : Raw.Region) (p : Nat) : Leak (List W32) := loadL strict xlen 16 toBe m r p
def loadBlock64L (strict : Bool) (m : Mem) (r : Raw.Region) (p : Nat) : Leak (List W64) := loadL strict 64 16 toBe m r p
def loadBlock64L' (strict : Bool) (m : Mem) (r : Raw.Region) (p : Nat) : Leak (List W64) := do
  let b ← loadL strict 32 32 id m r p
  joinL b

/-- `opaque_load::<R>`, riscv_zknh_utils.rs:82-97 (sha512/…:131-160): `assert!`, then a load of `k[R]` from the memory of the slice,
which is `8 * R .. 8 * R + 8` (or `4 * R ..`) of its bytes. -/
def opaqueLoadL {w : Nat} (o : Ops w) (k : List (BitVec w)) (R : Nat) : Leak (BitVec w) := do
  check (R < k.length)
  Raw.derefL ⟨0, w / 8 * k.length⟩ 1 (w / 8 * R) (w / 8)
  pure (o.load k R)

/-- The common text of `round`, riscv_zknh.rs:24-45 and riscv_zknh_compact.rs:24-46. -/
def roundL {w : Nat} (o : Ops w) (s : List (BitVec w)) (r : Nat) (k m : Leak (BitVec w)) : Leak (List (BitVec w)) := do
  let n ← usub o.K.length r
  let a := (n + 0) % 8
  let b := (n + 1) % 8
  let c := (n + 2) % 8
  let d := (n + 3) % 8
  let e := (n + 4) % 8
  let f := (n + 5) % 8
  let g := (n + 6) % 8
  let h := (n + 7) % 8
  let sh ← idx s h
  let se ← idx s e
  let sf ← idx s f
  let sg ← idx s g
  let k ← k
  let m ← m
  let s ← upd s h (sh + o.sum1 se + ch se sf sg + k + m)
  let sd ← idx s d
  let sh ← idx s h
  let s ← upd s d (sd + sh)
  let sh ← idx s h
  let sa ← idx s a
  let sb ← idx s b
  let sc ← idx s c
  upd s h (sh + o.sum0 sa + maj sa sb sc)

/-- `round::<R>`, riscv_zknh.rs:24-45 -/
def roundUL {w : Nat} (o : Ops w) (k b s : List (BitVec w)) (R : Nat) : Leak (List (BitVec w)) :=
  roundL o s R (opaqueLoadL o k R) (idx b R)

/-- The schedule, riscv_zknh.rs:50-53 with `R` for `r % 16`, and riscv_zknh_compact.rs:48-54. -/
def scheduleL {w : Nat} (o : Ops w) (b : List (BitVec w)) (r : Nat) : Leak (List (BitVec w)) := do
  let x ← idx b (r % 16)
  let y ← idx b ((r + 14) % 16)
  let z ← idx b ((r + 9) % 16)
  let t ← idx b ((r + 1) % 16)
  upd b (r % 16) (x + o.sig1 y + z + o.sig0 t)

/-- `state[i] = state[i].wrapping_add(s[i])`, riscv_zknh.rs:99-101 -/
def addStateL {w : Nat} (state s : List (BitVec w)) : Leak (List (BitVec w)) :=
  loop 8 state fun state i => do
    let x ← idx state i
    let y ← idx s i
    upd state i (x + y)

/-- `compress_block`, riscv_zknh.rs:56-102 (`R` runs over 0..16 in the text) -/
def compressBlockUL {w : Nat} (o : Ops w) (state block : List (BitVec w)) : Leak (List (BitVec w)) := do
  let x ← loop o.groups (state, block) fun x i => do
    let k ← slice o.K (16 * i) o.K.length
    loop 16 x fun x R => do
      let s ← roundUL o k x.2 x.1 R
      let b ← scheduleL o x.2 R
      pure (s, b)
  let k ← slice o.K (16 * o.groups) o.K.length
  let s ← loop 16 x.1 fun s R => roundUL o k x.2 s R
  addStateL state s

/-- `if r < 48 { schedule(&mut block, r) }`, riscv_zknh_compact.rs:62-64 -/
def scheduleIfL {w : Nat} (o : Ops w) (b : List (BitVec w)) (r : Nat) : Leak (List (BitVec w)) :=
  branch (r < 16 * o.groups) (scheduleL o b r) (pure b)

/-- `compress_block`, riscv_zknh_compact.rs:56-70 -/
def compressBlockCL {w : Nat} (o : Ops w) (state block : List (BitVec w)) : Leak (List (BitVec w)) := do
  let x ← loop (16 * (o.groups + 1)) (state, block) fun (x : List (BitVec w) × List (BitVec w)) r => do
    let s ← roundL o x.1 r (idx o.K r) (idx x.2 (r % 16))
    let b ← scheduleIfL o x.2 r
    pure (s, b)
  addStateL state x.1

/-- `compress`, riscv_zknh.rs:104-108: the object `r` holds the `n` blocks at `p`. -/
def compressL {w : Nat} (bytes : Nat) (load : Mem → Raw.Region → Nat → Leak (List (BitVec w)))
    (compressBlock : List (BitVec w) → List (BitVec w) → Leak (List (BitVec w))) (m : Mem) (r : Raw.Region) (p n : Nat)
    (state : List (BitVec w)) : Leak (List (BitVec w)) :=
  loop n state fun s i => do
    let b ← load m r (p + bytes * i)
    compressBlock s b

section
variable (m : Mem) (r : Raw.Region) (p n : Nat)

/-- `sha256::riscv_zknh::compress`; in this and the five below `strict` says whether the pointer in `load_unaligned_block` is moved
with `add` (as it is) or `wrapping_add`. -/
def zknh256L (strict : Bool) (xlen : Nat) := compressL 64 (loadBlock32L strict xlen) (compressBlockUL ops256) m r p n
/-- `sha256::riscv_zknh_compact::compress` -/
def zknh256CompactL (strict : Bool) (xlen : Nat) := compressL 64 (loadBlock32L strict xlen) (compressBlockCL ops256) m r p n
/-- `sha512::riscv_zknh::compress` on RV64 -/
def zknh512L (strict : Bool) := compressL 128 (loadBlock64L strict) (compressBlockUL ops512) m r p n
/-- `sha512::riscv_zknh_compact::compress` on RV64 -/
def zknh512CompactL (strict : Bool) := compressL 128 (loadBlock64L strict) (compressBlockCL ops512) m r p n
/-- `sha512::riscv_zknh::compress` on RV32 -/
def zknh512L' (strict : Bool) := compressL 128 (loadBlock64L' strict) (compressBlockUL ops512') m r p n
/-- `sha512::riscv_zknh_compact::compress` on RV32 -/
def zknh512CompactL' (strict : Bool) := compressL 128 (loadBlock64L' strict) (compressBlockCL ops512') m r p n

end

end Hashes.Sha2Riscv
