import Verif.Base.Rust
import Verif.Base.Simd
/-
Rust's rules for raw pointers.  An allocated object is an interval of addresses; a pointer is an address together with the object it
was derived from.  An operation that would be undefined behaviour is `none`.
-/
namespace Hashes.Raw

/-- The addresses `lo .. hi - 1` of an allocated object. -/
structure Region where
  lo : Nat
  hi : Nat

/-- `p.add(k)`, with the distance `n` in bytes (`n = k * size_of::<T>()`): unless it is 0, the bytes from `p` to the result must
be inside the object that `p` was derived from. -/
def add (r : Region) (p n : Nat) : Option Nat := if n = 0 ∨ r.lo ≤ p ∧ p + n ≤ r.hi then some (p + n) else none

/-- The condition for reading or writing `size` bytes at `p` through a pointer to a type of alignment `align`; unaligned accesses
(`read_unaligned`, `_mm_loadu_si128`, `vld1q_u32`, `v128_load`) have `align = 1`. -/
def deref (r : Region) (align p size : Nat) : Option Unit := Rs.check (p % align = 0 ∧ r.lo ≤ p ∧ p + size ≤ r.hi)

/-- An object with its address and its bytes. -/
structure Obj where
  addr : Nat
  data : Bytes

def Obj.region (o : Obj) : Region := ⟨o.addr, o.addr + o.data.length⟩

/-- Sixteen bytes through a pointer without alignment requirement: `_mm_loadu_si128`, `vld1q_u8`, `vld1q_u32`, `vld1q_u64`,
`v128_load`, `ptr::read_unaligned` of a 16-byte type. -/
def Obj.loadu (o : Obj) (p : Nat) : Option V128 := do
  deref o.region 1 p 16
  pure (Simd.load o.data (p - o.addr))

/-- `_mm_storeu_si128`, `vst1q_u32`, `vst1q_u64` -/
def Obj.storeu (o : Obj) (p : Nat) (v : V128) : Option Obj := do
  deref o.region 1 p 16
  pure ⟨o.addr, o.data.take (p - o.addr) ++ Simd.store v ++ o.data.drop (p - o.addr + 16)⟩

/-- `loadu(a.as_ptr().cast::<T>().add(i))` with `size_of::<T>() = k` -/
def Obj.loadAt (o : Obj) (k i : Nat) : Option V128 := do
  let p ← add o.region o.addr (k * i)
  o.loadu p

/-- `storeu(a.as_mut_ptr().cast::<T>().add(i), v)` with `size_of::<T>() = k` -/
def Obj.storeAt (o : Obj) (k i : Nat) (v : V128) : Option Obj := do
  let p ← add o.region o.addr (k * i)
  o.storeu p v

/-- `vld1q(a[i..j].as_ptr())` with elements of `k` bytes: the slice is bounds-checked, and the load must stay in the slice. -/
def Obj.loadSlice (o : Obj) (k i j : Nat) : Option V128 := do
  Rs.check (i ≤ j ∧ k * j ≤ o.data.length)
  deref ⟨o.addr + k * i, o.addr + k * j⟩ 1 (o.addr + k * i) 16
  o.loadu (o.addr + k * i)

/-- `vst1q(a[i..j].as_mut_ptr(), v)` -/
def Obj.storeSlice (o : Obj) (k i j : Nat) (v : V128) : Option Obj := do
  Rs.check (i ≤ j ∧ k * j ≤ o.data.length)
  deref ⟨o.addr + k * i, o.addr + k * j⟩ 1 (o.addr + k * i) 16
  o.storeu (o.addr + k * i) v

/-- `vld1q(&a[i])` with elements of `k` bytes: the index is bounds-checked, the load may go on to the end of `a`. -/
def Obj.loadElem (o : Obj) (k i : Nat) : Option V128 := do
  Rs.check (k * i + k ≤ o.data.length)
  o.loadu (o.addr + k * i)

end Hashes.Raw
