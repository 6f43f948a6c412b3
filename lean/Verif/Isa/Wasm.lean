import Verif.Base.Simd
/-
Semantics of the WebAssembly SIMD intrinsics used by /repo/sha2/src/sha256/wasm32.rs and
/repo/sha2/src/sha512/wasm32.rs, transcribed from the WebAssembly core specification (vector instructions; memory is
little-endian) and the shuffle documentation of `core::arch::wasm32`.  Part of the trusted base.
-/
namespace Hashes.Wasm
open Simd

/-- `i8x16.shuffle` with the 16 immediate lane indices given by `p`: indices below 16 select from `a`, others from `b`. -/
def i8x16_shuffle (p : Nat → Nat) (a b : V128) : V128 :=
  pack 8 fun i => if p i < 16 then lane 8 (p i) a else lane 8 (p i - 16) b
/-- `u32x4_shuffle::<i0, i1, i2, i3>(a, b)` -/
def u32x4_shuffle (i0 i1 i2 i3 : Nat) (a b : V128) : V128 :=
  let sel := fun i => if i < 4 then lane 32 i a else lane 32 (i - 4) b
  pack 32 fun i => sel ((⟨i0, i1, i2, i3⟩ : V4 Nat).get i)
/-- `u64x2_shuffle::<i0, i1>(a, b)` -/
def u64x2_shuffle (i0 i1 : Nat) (a b : V128) : V128 :=
  let sel := fun i => if i < 2 then lane 64 i a else lane 64 (i - 2) b
  pack 64 fun i => sel (if i = 0 then i0 else i1)
/-- `i32x4.add` -/
def u32x4_add (a b : V128) : V128 := zip 32 (· + ·) a b
/-- `i64x2.add` -/
def i64x2_add (a b : V128) : V128 := zip 64 (· + ·) a b
/-- `v128.xor` -/
def v128_xor (a b : V128) : V128 := a ^^^ b
/-- `i32x4.shr_u`: the shift count is taken modulo the lane width. -/
def u32x4_shr (a : V128) (n : Nat) : V128 := map 32 (fun x => x >>> (n % 32)) a
/-- `i32x4.shl` -/
def u32x4_shl (a : V128) (n : Nat) : V128 := map 32 (fun x => x <<< (n % 32)) a
/-- `i64x2.shr_u` -/
def u64x2_shr (a : V128) (n : Nat) : V128 := map 64 (fun x => x >>> (n % 64)) a
/-- `i64x2.shl` -/
def u64x2_shl (a : V128) (n : Nat) : V128 := map 64 (fun x => x <<< (n % 64)) a

end Hashes.Wasm
