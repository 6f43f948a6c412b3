import Verif.Isa.X86
import Verif.Isa.Wasm
import Verif.Model.Sha256
import Verif.Model.Sha512
/-
Model of three backends with the same control flow: /repo/sha2/src/sha512/x86_avx2.rs,
/repo/sha2/src/sha512/wasm32.rs and /repo/sha2/src/sha256/wasm32.rs.

A message register holds `L` words (4 of 32 bits or 2 of 64 bits), so 16 message words take `16 / L` registers.  The
scalar part (`sha_round`, loops, `accumulate_state`) is the same text in the three files; it is modelled once,
parameterised by `L`, the number of groups, and `update_x`.
-/
namespace Hashes.Sha2Simd
open Simd

/-- `sha_round`, sha512/x86_avx2.rs:190-237, sha512/wasm32.rs:73-120, sha256/wasm32.rs:78-125; `S0`, `S1` are the
macros `big_sigma0!`, `big_sigma1!` of the file. -/
def shaRound {w : Nat} (S0 S1 : BitVec w → BitVec w) (s : V8 (BitVec w)) (x : BitVec w) : V8 (BitVec w) :=
  let t := x + s.x7 + S1 s.x4 + (s.x6 ^^^ (s.x4 &&& (s.x5 ^^^ s.x6)))
  let s7 := t + S0 s.x0 + ((s.x0 &&& s.x1) ^^^ (s.x0 &&& s.x2) ^^^ (s.x1 &&& s.x2))
  let s3 := s.x3 + t
  -- rotate_state!
  ⟨s7, s.x0, s.x1, s.x2, s3, s.x4, s.x5, s.x6⟩

/-- Word `i` of an array of registers: `extract_lane::<l>(ms[j])` for `i = L j + l`, and `cast_ms`/`cast_rs`
(x86_avx2.rs:339-347), which reinterpret the registers as an array of little-endian words. -/
def word (w L : Nat) {n : Nat} (ms : Arr 128 n) (i : Nat) : BitVec w := lane w (i % L) (ms.get (i / L))

/-- `loadu(K.as_ptr().add(idx))` -/
def ldK {w : Nat} (K : List (BitVec w)) (idx : Nat) : V128 := load (bytesOfWordsLE (K.drop idx)) 0

/-- What differs between the files. -/
structure Ops (w : Nat) (X : Type) where
  L : Nat
  groups : Nat
  K : List (BitVec w)
  S0 : BitVec w → BitVec w
  S1 : BitVec w → BitVec w
  update : X → V128 → X × V128

/-- The variables of `rounds_0_63` / `rounds_0_47`. -/
structure St (w L : Nat) (X : Type) where
  s : V8 (BitVec w)
  x : X
  ms : Arr 128 (16 / L)
  idx : Nat

/-- The rounds of one message register, `sha_round(current_state, …)` for its `L` words. -/
def roundsReg {w n : Nat} (S0 S1 : BitVec w → BitVec w) (L : Nat) (ms : Arr 128 n) (j : Nat) (s : V8 (BitVec w)) :
    V8 (BitVec w) :=
  (List.range L).foldl (fun s l => shaRound S0 S1 s (word w L ms (L * j + l))) s

/-- Body of the two nested loops, x86_avx2.rs:131-141, sha512/wasm32.rs:48-58, sha256/wasm32.rs:49-61. -/
def body {w : Nat} {X : Type} (o : Ops w X) (v : St w o.L X) (j : Nat) : St w o.L X :=
  let k := ldK o.K v.idx
  let u := o.update v.x k
  let s := roundsReg o.S0 o.S1 o.L v.ms j v.s
  { s := s, x := u.1, ms := v.ms.set j u.2, idx := v.idx + o.L }

/-- `rounds_0_63_avx` (x86_avx2.rs:126-144), `rounds_0_63` (sha512/wasm32.rs:43-61), `rounds_0_47`
(sha256/wasm32.rs:44-64). -/
def mainLoop {w : Nat} {X : Type} (o : Ops w X) (v : St w o.L X) : St w o.L X :=
  (List.range o.groups).foldl (fun v _ => (List.range (16 / o.L)).foldl (body o) v) v

/-- `rounds_64_79` (x86_avx2.rs:175-180, sha512/wasm32.rs:64-70), `rounds_48_63` (sha256/wasm32.rs:67-75; the loops over
registers and lanes are one loop over words here). -/
def lastLoop {w n : Nat} (S0 S1 : BitVec w → BitVec w) (L : Nat) (ms : Arr 128 n) (s : V8 (BitVec w)) : V8 (BitVec w) :=
  (List.range 16).foldl (fun s i => shaRound S0 S1 s (word w L ms i)) s

/-- `accumulate_state` -/
def accumulate {w : Nat} (dst src : V8 (BitVec w)) : V8 (BitVec w) := dst.zip (· + ·) src

/-- One block, e.g. sha512/wasm32.rs:14-18 and x86_avx2.rs:63-67, from the loaded data. -/
def blockWith {w : Nat} {X : Type} (o : Ops w X) (state : V8 (BitVec w)) (x : X) (ms : Arr 128 (16 / o.L)) : V8 (BitVec w) :=
  let v := mainLoop o { s := state, x := x, ms := ms, idx := 16 }
  accumulate state (lastLoop o.S0 o.S1 o.L v.ms v.s)

/-- `big_sigma0!`/`big_sigma1!` of the SHA-512 files, x86_avx2.rs:191-200. -/
def bigSigma0_512 (a : W64) : W64 := a.rotateRight 28 ^^^ a.rotateRight 34 ^^^ a.rotateRight 39
def bigSigma1_512 (a : W64) : W64 := a.rotateRight 14 ^^^ a.rotateRight 18 ^^^ a.rotateRight 41
/-- `big_sigma0!`/`big_sigma1!` of sha256/wasm32.rs:79-88. -/
def bigSigma0_256 (a : W32) : W32 := a.rotateRight 2 ^^^ a.rotateRight 13 ^^^ a.rotateRight 22
def bigSigma1_256 (a : W32) : W32 := a.rotateRight 6 ^^^ a.rotateRight 11 ^^^ a.rotateRight 25

/-! ### sha512/wasm32.rs -/
section Wasm512
open Wasm

/-- `sha512_update_x`, sha512/wasm32.rs:130-164. -/
def wasmUpdate512 (x : V8 V128) (k64 : V128) : V8 V128 × V128 :=
  let t0 := u64x2_shuffle 1 2 x.x0 x.x1
  let t3 := u64x2_shuffle 1 2 x.x4 x.x5
  let t2 := u64x2_shr t0 1
  let x0 := i64x2_add x.x0 t3
  let t3 := u64x2_shr t0 7
  let t1 := u64x2_shl t0 (64 - 8)
  let t0 := v128_xor t3 t2
  let t2 := u64x2_shr t2 (8 - 1)
  let t0 := v128_xor t0 t1
  let t1 := u64x2_shl t1 (8 - 1)
  let t0 := v128_xor t0 t2
  let t0 := v128_xor t0 t1
  let t3 := u64x2_shr x.x7 6
  let t2 := u64x2_shl x.x7 (64 - 61)
  let x0 := i64x2_add x0 t0
  let t1 := u64x2_shr x.x7 19
  let t3 := v128_xor t3 t2
  let t2 := u64x2_shl t2 (61 - 19)
  let t3 := v128_xor t3 t1
  let t1 := u64x2_shr t1 (61 - 19)
  let t3 := v128_xor t3 t2
  let t3 := v128_xor t3 t1
  let x0 := i64x2_add x0 t3
  (⟨x.x1, x.x2, x.x3, x.x4, x.x5, x.x6, x.x7, x0⟩, i64x2_add x0 k64)

/-- The shuffle immediates of sha512/wasm32.rs:28. -/
def swap64 (i : Nat) : Nat := [7, 6, 5, 4, 3, 2, 1, 0, 15, 14, 13, 12, 11, 10, 9, 8].getD i 0

def wasmOps512 : Ops 64 (V8 V128) :=
  { L := 2, groups := 4, K := Sha512.K64, S0 := bigSigma0_512, S1 := bigSigma1_512, update := wasmUpdate512 }

/-- One block, sha512/wasm32.rs:12-20 with `load_data` :24-40. -/
def wasmBlock512 (state : V8 W64) (block : Bytes) : V8 W64 :=
  let x := V8.ofFn fun i =>
    let v := load block (16 * i)
    i8x16_shuffle swap64 v v
  let ms := Arr.ofFn 8 fun i => i64x2_add (x.get i) (ldK Sha512.K64 (2 * i))
  blockWith wasmOps512 state x ms

/-- `compress`, sha512/wasm32.rs:8-21. -/
def wasm512 (state : V8 W64) (blks : List Bytes) : V8 W64 := blks.foldl wasmBlock512 state
end Wasm512

/-! ### sha256/wasm32.rs -/
section Wasm256
open Wasm

/-- `sha256_update_x`, sha256/wasm32.rs:135-182. -/
def wasmUpdate256 (x : V4 V128) (k32 : V128) : V4 V128 × V128 :=
  let zero : V128 := 0
  let t0 := u32x4_shuffle 1 2 3 4 x.x0 x.x1
  let t3 := u32x4_shuffle 1 2 3 4 x.x2 x.x3
  let t2 := u32x4_shr t0 7
  let x0 := u32x4_add x.x0 t3
  let t3 := u32x4_shr t0 3
  let t1 := u32x4_shl t0 (32 - 18)
  let t0 := v128_xor t3 t2
  let t3 := u32x4_shuffle 2 2 3 3 x.x3 x.x3
  let t2 := u32x4_shr t2 (18 - 7)
  let t0 := v128_xor t0 t1
  let t0 := v128_xor t0 t2
  let t1 := u32x4_shl t1 (18 - 7)
  let t2 := u32x4_shr t3 10
  let t3 := u64x2_shr t3 17
  let t1 := v128_xor t0 t1
  let x0 := u32x4_add x0 t1
  let t2 := v128_xor t2 t3
  let t3 := u64x2_shr t3 (19 - 17)
  let t2 := v128_xor t2 t3
  let t2 := u32x4_shuffle 0 2 7 7 t2 zero
  let x0 := u32x4_add x0 t2
  let t3 := u32x4_shuffle 0 0 1 1 x0 x0
  let t2 := u32x4_shr t3 10
  let t3 := u64x2_shr t3 17
  let t2 := v128_xor t2 t3
  let t3 := u64x2_shr t3 (19 - 17)
  let t2 := v128_xor t2 t3
  let t2 := u32x4_shuffle 7 7 0 2 t2 zero
  let x0 := u32x4_add x0 t2
  (⟨x.x1, x.x2, x.x3, x0⟩, u32x4_add x0 k32)

/-- The shuffle immediates of sha256/wasm32.rs:29. -/
def swap32 (i : Nat) : Nat := [3, 2, 1, 0, 7, 6, 5, 4, 11, 10, 9, 8, 15, 14, 13, 12].getD i 0

def wasmOps256 : Ops 32 (V4 V128) :=
  { L := 4, groups := 3, K := Sha256.K32, S0 := bigSigma0_256, S1 := bigSigma1_256, update := wasmUpdate256 }

/-- One block, sha256/wasm32.rs:13-21 with `load_data` :25-41. -/
def wasmBlock256 (state : V8 W32) (block : Bytes) : V8 W32 :=
  let x := V4.ofFn fun i =>
    let v := load block (16 * i)
    i8x16_shuffle swap32 v v
  let ms := Arr.ofFn 4 fun i => u32x4_add (x.get i) (ldK Sha256.K32 (4 * i))
  blockWith wasmOps256 state x ms

/-- `compress`, sha256/wasm32.rs:7-22. -/
def wasm256 (state : V8 W32) (blks : List Bytes) : V8 W32 := blks.foldl wasmBlock256 state
end Wasm256

/-! ### sha512/x86_avx2.rs -/
section Avx
open X86

/-- `sha512_update_x_avx`: the macro `fn_sha512_update_x!`, x86_avx2.rs:246-329, on 128-bit registers. -/
def avxUpdate (x : V8 V128) (k64 : V128) : V8 V128 × V128 :=
  let t0 := mm_alignr_epi8 x.x1 x.x0 8
  let t3 := mm_alignr_epi8 x.x5 x.x4 8
  let t2 := mm_srli_epi64 t0 1
  let x0 := mm_add_epi64 x.x0 t3
  let t3 := mm_srli_epi64 t0 7
  let t1 := mm_slli_epi64 t0 (64 - 8)
  let t0 := mm_xor_si128 t3 t2
  let t2 := mm_srli_epi64 t2 (8 - 1)
  let t0 := mm_xor_si128 t0 t1
  let t1 := mm_slli_epi64 t1 (8 - 1)
  let t0 := mm_xor_si128 t0 t2
  let t0 := mm_xor_si128 t0 t1
  let t3 := mm_srli_epi64 x.x7 6
  let t2 := mm_slli_epi64 x.x7 (64 - 61)
  let x0 := mm_add_epi64 x0 t0
  let t1 := mm_srli_epi64 x.x7 19
  let t3 := mm_xor_si128 t3 t2
  let t2 := mm_slli_epi64 t2 (61 - 19)
  let t3 := mm_xor_si128 t3 t1
  let t1 := mm_srli_epi64 t1 (61 - 19)
  let t3 := mm_xor_si128 t3 t2
  let t3 := mm_xor_si128 t3 t1
  let x0 := mm_add_epi64 x0 t3
  (⟨x.x1, x.x2, x.x3, x.x4, x.x5, x.x6, x.x7, x0⟩, mm_add_epi64 x0 k64)

/-- `__m256i` as its two 128-bit halves, low half first. -/
abbrev V256 := V128 × V128

/-- A 256-bit intrinsic that works on the two 128-bit lanes independently (VPADDQ, VPXOR, VPALIGNR, VPSHUFB, …). -/
def both2 (f : V128 → V128 → V128) (a b : V256) : V256 := (f a.1 b.1, f a.2 b.2)
/-- The same with an immediate (VPSRLQ, VPSLLQ). -/
def bothI (f : V128 → Nat → V128) (a : V256) (n : Nat) : V256 := (f a.1 n, f a.2 n)
/-- VPALIGNR -/
def mm256_alignr_epi8 (a b : V256) (n : Nat) : V256 := both2 (fun a b => mm_alignr_epi8 a b n) a b
/-- VPADDQ -/
def mm256_add_epi64 := both2 mm_add_epi64
/-- VPXOR -/
def mm256_xor_si256 := both2 mm_xor_si128
/-- VPSRLQ -/
def mm256_srli_epi64 := bothI mm_srli_epi64
/-- VPSLLQ -/
def mm256_slli_epi64 := bothI mm_slli_epi64
/-- VPSHUFB -/
def mm256_shuffle_epi8 := both2 mm_shuffle_epi8
/-- `_mm256_set_m128i(hi, lo)` -/
def mm256_set_m128i (hi lo : V128) : V256 := (lo, hi)
/-- VINSERTF128 -/
def mm256_insertf128_si256 (a : V256) (b : V128) (i : Nat) : V256 := if i % 2 = 0 then (b, a.2) else (a.1, b)
/-- VEXTRACTI128 -/
def mm256_extracti128_si256 (a : V256) (i : Nat) : V128 := if i % 2 = 0 then a.1 else a.2

/-- `sha512_update_x_avx2`: the same macro on 256-bit registers, x86_avx2.rs:331-337. -/
def avx2Update (x : V8 V256) (k64 : V256) : V8 V256 × V256 :=
  let t0 := mm256_alignr_epi8 x.x1 x.x0 8
  let t3 := mm256_alignr_epi8 x.x5 x.x4 8
  let t2 := mm256_srli_epi64 t0 1
  let x0 := mm256_add_epi64 x.x0 t3
  let t3 := mm256_srli_epi64 t0 7
  let t1 := mm256_slli_epi64 t0 (64 - 8)
  let t0 := mm256_xor_si256 t3 t2
  let t2 := mm256_srli_epi64 t2 (8 - 1)
  let t0 := mm256_xor_si256 t0 t1
  let t1 := mm256_slli_epi64 t1 (8 - 1)
  let t0 := mm256_xor_si256 t0 t2
  let t0 := mm256_xor_si256 t0 t1
  let t3 := mm256_srli_epi64 x.x7 6
  let t2 := mm256_slli_epi64 x.x7 (64 - 61)
  let x0 := mm256_add_epi64 x0 t0
  let t1 := mm256_srli_epi64 x.x7 19
  let t3 := mm256_xor_si256 t3 t2
  let t2 := mm256_slli_epi64 t2 (61 - 19)
  let t3 := mm256_xor_si256 t3 t1
  let t1 := mm256_srli_epi64 t1 (61 - 19)
  let t3 := mm256_xor_si256 t3 t2
  let t3 := mm256_xor_si256 t3 t1
  let x0 := mm256_add_epi64 x0 t3
  (⟨x.x1, x.x2, x.x3, x.x4, x.x5, x.x6, x.x7, x0⟩, mm256_add_epi64 x0 k64)

/-- `MASK`, x86_avx2.rs:73. -/
def MASK : V128 := mm_set_epi32 0x08090a0b 0x0c0d0e0f 0x00010203 0x04050607
/-- `MASK`, x86_avx2.rs:100-105. -/
def MASK2 : V256 :=
  (mm_set_epi64x 0x08090A0B0C0D0E0F 0x0001020304050607, mm_set_epi64x 0x08090A0B0C0D0E0F 0x0001020304050607)

def avxOps : Ops 64 (V8 V128) :=
  { L := 2, groups := 4, K := Sha512.K64, S0 := bigSigma0_512, S1 := bigSigma1_512, update := avxUpdate }

/-- `sha512_compress_x86_64_avx` (x86_avx2.rs:58-68) with `load_data_avx` (:71-90). -/
def avxBlock (state : V8 W64) (block : Bytes) : V8 W64 :=
  let x := V8.ofFn fun i => mm_shuffle_epi8 (load block (16 * i)) MASK
  let ms := Arr.ofFn 8 fun i => mm_add_epi64 (x.get i) (ldK Sha512.K64 (2 * i))
  blockWith avxOps state x ms

/-- The variables of `rounds_0_63_avx2`. -/
structure St2 where
  s : V8 W64
  x : V8 V256
  ms : Arr 128 8
  t2 : Arr 128 40
  idx : Nat

/-- Body of the loops of `rounds_0_63_avx2`, x86_avx2.rs:157-169; `i` runs from 1 to 4. -/
def body2 (i : Nat) (v : St2) (j : Nat) : St2 :=
  let t := ldK Sha512.K64 v.idx
  let u := avx2Update v.x (mm256_set_m128i t t)
  let y := u.2
  let s := roundsReg bigSigma0_512 bigSigma1_512 2 v.ms j v.s
  { s := s, x := u.1, ms := v.ms.set j (mm256_extracti128_si256 y 0)
    t2 := v.t2.set (8 * i + j) (mm256_extracti128_si256 y 1), idx := v.idx + 2 }

/-- `rounds_0_63_avx2`, x86_avx2.rs:147-172. -/
def mainLoop2 (v : St2) : St2 :=
  [1, 2, 3, 4].foldl (fun v i => (List.range 8).foldl (body2 i) v) v

/-- The loop body over two blocks, x86_avx2.rs:41-54, with `load_data_avx2` (:93-123).  `x`, `ms`, `t2` are the
values left by the previous iteration; `pair` are the 256 bytes of the two blocks. -/
def avx2Pair (v : V8 W64 × V8 V256 × Arr 128 8 × Arr 128 40) (pair : Bytes) :
    V8 W64 × V8 V256 × Arr 128 8 × Arr 128 40 :=
  let state := v.1
  let x0 := v.2.1
  let x := V8.ofFn fun i =>
    let xi := mm256_insertf128_si256 (x0.get i) (load pair (16 * (8 + i))) 1
    let xi := mm256_insertf128_si256 xi (load pair (16 * i)) 0
    mm256_shuffle_epi8 xi MASK2
  let y := fun i =>
    let t := ldK Sha512.K64 (i * 2)
    mm256_add_epi64 (x.get i) (mm256_set_m128i t t)
  let ms := (List.range 8).foldl (fun (a : Arr 128 8) i => a.set i (mm256_extracti128_si256 (y i) 0)) v.2.2.1
  let t2 := (List.range 8).foldl (fun (a : Arr 128 40) i => a.set i (mm256_extracti128_si256 (y i) 1)) v.2.2.2
  -- First block
  let w := mainLoop2 { s := state, x := x, ms := ms, t2 := t2, idx := 16 }
  let state := accumulate state (lastLoop bigSigma0_512 bigSigma1_512 2 w.ms w.s)
  -- Second block: process_second_block, :183-187
  let cur := (List.range 80).foldl (fun s i => shaRound bigSigma0_512 bigSigma1_512 s (word 64 2 w.t2 i)) state
  (accumulate state cur, w.x, w.ms, w.t2)

/-- The loop over pairs, x86_avx2.rs:41 (`step_by(2)` from `start_block`; the number of remaining blocks is even, an
odd last block never occurs). -/
def avx2Pairs (v : V8 W64 × V8 V256 × Arr 128 8 × Arr 128 40) : List Bytes → V8 W64 × V8 V256 × Arr 128 8 × Arr 128 40
  | a :: b :: rest => avx2Pairs (avx2Pair v (a ++ b)) rest
  | _ => v

/-- `sha512_compress_x86_64_avx2`, x86_avx2.rs:29-55. -/
def avx2 (state : V8 W64) (blks : List Bytes) : V8 W64 :=
  let zero : V128 := 0
  let first := if blks.length % 2 ≠ 0 then (avxBlock state (blks.getD 0 []), 1) else (state, 0)
  (avx2Pairs (first.1, V8.ofFn fun _ => (zero, zero), Arr.ofFn 8 fun _ => zero, Arr.ofFn 40 fun _ => zero)
    (blks.drop first.2)).1
end Avx

end Hashes.Sha2Simd
