import Verif.Base.Raw
import Verif.Model.Sha2Simd
/-
The AVX2 backend of SHA-512 and the WebAssembly backends of SHA-256 and SHA-512 with Rust's rules for raw pointers and its
bounds checks: /repo/sha2/src/sha512/x86_avx2.rs, /repo/sha2/src/sha512/wasm32.rs, /repo/sha2/src/sha256/wasm32.rs.  Blocks and
constants are objects at arbitrary addresses.  Arrays indexed only by literals (`x`, `s`) stay structures.
-/
namespace Hashes.Sha2Simd
open Simd

/-- `a[i]` for an array of registers. -/
def idxA {w n : Nat} (a : Arr w n) (i : Nat) : Option (BitVec w) := if i < n then some (a.get i) else none
/-- `a[i] = v` -/
def updA {w n : Nat} (a : Arr w n) (i : Nat) (v : BitVec w) : Option (Arr w n) := if i < n then some (a.set i v) else none

/-- `f(0), .., f(7)`: an unrolled macro. -/
def all8 {α : Type} (f : Nat → Option α) : Option (V8 α) := do
  pure ⟨← f 0, ← f 1, ← f 2, ← f 3, ← f 4, ← f 5, ← f 6, ← f 7⟩
def all4 {α : Type} (f : Nat → Option α) : Option (V4 α) := do
  pure ⟨← f 0, ← f 1, ← f 2, ← f 3⟩

/-- Word `i`: `cast_ms(ms)[i]` / `cast_rs(t2)[i]` (x86_avx2.rs:339-347), or `ms[j]` and a literal lane (wasm32.rs).  Word `i` exists
iff register `i / L` does. -/
def wordC (w L : Nat) {n : Nat} (ms : Arr 128 n) (i : Nat) : Option (BitVec w) := do
  let r ← idxA ms (i / L)
  pure (lane w (i % L) r)

/-- The rounds of one message register. -/
def roundsRegC {w n : Nat} (S0 S1 : BitVec w → BitVec w) (L : Nat) (ms : Arr 128 n) (j : Nat) (s : V8 (BitVec w)) :
    Option (V8 (BitVec w)) :=
  Rs.loop L s fun s l => do
    let x ← wordC w L ms (L * j + l)
    pure (shaRound S0 S1 s x)

/-- Body of the two nested loops, x86_avx2.rs:131-141, sha512/wasm32.rs:48-58, sha256/wasm32.rs:49-61; `k` is the table. -/
def bodyC {w : Nat} {X : Type} (k : Raw.Obj) (o : Ops w X) (v : St w o.L X) (j : Nat) : Option (St w o.L X) := do
  let kv ← k.loadAt (w / 8) v.idx
  let u := o.update v.x kv
  let s ← roundsRegC o.S0 o.S1 o.L v.ms j v.s
  let ms ← updA v.ms j u.2
  pure { s := s, x := u.1, ms := ms, idx := v.idx + o.L }

/-- `rounds_0_63_avx` (x86_avx2.rs:126-144), `rounds_0_63` (sha512/wasm32.rs:43-61), `rounds_0_47` (sha256/wasm32.rs:44-64) -/
def mainLoopC {w : Nat} {X : Type} (k : Raw.Obj) (o : Ops w X) (v : St w o.L X) : Option (St w o.L X) :=
  Rs.loop o.groups v fun v _ => Rs.loop (16 / o.L) v (bodyC k o)

/-- `rounds_64_79` (x86_avx2.rs:175-180: word `i & 0xf` for `i` from 64; sha512/wasm32.rs:64-70), `rounds_48_63`
(sha256/wasm32.rs:67-75): in the last two, the words of the registers in order. -/
def lastLoopC {w n : Nat} (S0 S1 : BitVec w → BitVec w) (L : Nat) (ms : Arr 128 n) (s : V8 (BitVec w)) : Option (V8 (BitVec w)) :=
  Rs.loop 16 s fun s i => do
    let x ← wordC w L ms ((64 + i) % 16)
    pure (shaRound S0 S1 s x)

/-- `accumulate_state` -/
def accumulateC {w : Nat} (dst src : V8 (BitVec w)) : Option (V8 (BitVec w)) :=
  all8 fun i => do
    let a ← Rs.idx dst.toList i
    let b ← Rs.idx src.toList i
    pure (a + b)

/-- One block from the loaded data. -/
def blockWithC {w : Nat} {X : Type} (k : Raw.Obj) (o : Ops w X) (state : V8 (BitVec w)) (x : X) (ms : Arr 128 (16 / o.L)) :
    Option (V8 (BitVec w)) := do
  let v ← mainLoopC k o { s := state, x := x, ms := ms, idx := 16 }
  let cur ← lastLoopC o.S0 o.S1 o.L v.ms v.s
  accumulateC state cur

/-- The table `K64`, `K32` at an address. -/
def tableObj {w : Nat} (addr : Nat) (K : List (BitVec w)) : Raw.Obj := ⟨addr, bytesOfWordsLE K⟩

/-- One block of sha512/wasm32.rs:12-20 with `load_data` :24-40: `data.add(i)` and `K64.as_ptr().add(2 * i)`. -/
def wasmBlock512C (k : Raw.Obj) (state : V8 W64) (block : Raw.Obj) : Option (V8 W64) := do
  let x ← all8 fun i => do
    let v ← block.loadAt 16 i
    pure (Wasm.i8x16_shuffle swap64 v v)
  let kv ← all8 fun i => k.loadAt 8 (2 * i)
  let ms := Arr.ofFn 8 fun i => Wasm.i64x2_add (x.get i) (kv.get i)
  blockWithC k wasmOps512 state x ms

/-- `compress`, sha512/wasm32.rs:8-21 -/
def wasm512C (kAddr : Nat) (state : V8 W64) (blks : List Raw.Obj) : Option (V8 W64) :=
  blks.foldlM (wasmBlock512C (tableObj kAddr Sha512.K64)) state

/-- One block of sha256/wasm32.rs:13-21 with `load_data` :25-41. -/
def wasmBlock256C (k : Raw.Obj) (state : V8 W32) (block : Raw.Obj) : Option (V8 W32) := do
  let x ← all4 fun i => do
    let v ← block.loadAt 16 i
    pure (Wasm.i8x16_shuffle swap32 v v)
  let kv ← all4 fun i => k.loadAt 4 (4 * i)
  let ms := Arr.ofFn 4 fun i => Wasm.u32x4_add (x.get i) (kv.get i)
  blockWithC k wasmOps256 state x ms

/-- `compress`, sha256/wasm32.rs:7-22 -/
def wasm256C (kAddr : Nat) (state : V8 W32) (blks : List Raw.Obj) : Option (V8 W32) :=
  blks.foldlM (wasmBlock256C (tableObj kAddr Sha256.K32)) state

section Avx
open X86

/-- `sha512_compress_x86_64_avx` (x86_avx2.rs:58-68) with `load_data_avx` (:71-90). -/
def avxBlockC (k : Raw.Obj) (state : V8 W64) (block : Raw.Obj) : Option (V8 W64) := do
  let x ← all8 fun i => do
    let v ← block.loadAt 16 i
    pure (mm_shuffle_epi8 v MASK)
  let kv ← all8 fun i => k.loadAt 8 (2 * i)
  let ms := Arr.ofFn 8 fun i => mm_add_epi64 (x.get i) (kv.get i)
  blockWithC k avxOps state x ms

/-- Body of the loops of `rounds_0_63_avx2`, x86_avx2.rs:157-169. -/
def body2C (k : Raw.Obj) (i : Nat) (v : St2) (j : Nat) : Option St2 := do
  let t ← k.loadAt 8 v.idx
  let u := avx2Update v.x (mm256_set_m128i t t)
  let y := u.2
  let s ← roundsRegC bigSigma0_512 bigSigma1_512 2 v.ms j v.s
  let ms ← updA v.ms j (mm256_extracti128_si256 y 0)
  let t2 ← updA v.t2 (8 * i + j) (mm256_extracti128_si256 y 1)
  pure { s := s, x := u.1, ms := ms, t2 := t2, idx := v.idx + 2 }

/-- `rounds_0_63_avx2`, x86_avx2.rs:147-172; `for i in 1..5` -/
def mainLoop2C (k : Raw.Obj) (v : St2) : Option St2 :=
  Rs.loop 4 v fun v i => Rs.loop 8 v (body2C k (1 + i))

/-- `ms[$i] = ..` / `t2[$i] = ..` of `load_data_avx2`. -/
def fillC {n : Nat} (a : Arr 128 n) (f : Nat → V128) : Option (Arr 128 n) := Rs.loop 8 a fun a i => updA a i (f i)

/-- `process_second_block`, x86_avx2.rs:183-187 -/
def secondC (t2 : Arr 128 40) (s : V8 W64) : Option (V8 W64) :=
  Rs.loop 80 s fun s i => do
    let x ← wordC 64 2 t2 i
    pure (shaRound bigSigma0_512 bigSigma1_512 s x)

/-- `_mm_loadu_si128(data.add(j).cast())` where `data` points into `o` at address `p`. -/
def loadFrom (o : Raw.Obj) (p j : Nat) : Option V128 := do
  let q ← Raw.add o.region p (16 * j)
  o.loadu q

/-- The loop body over the blocks `i`, `i + 1`, x86_avx2.rs:41-54, with `load_data_avx2` (:93-123); `o` is the slice of all blocks, and
`blocks.as_ptr().add(i)` moves by `128 * i` bytes. -/
def avx2PairC (k o : Raw.Obj) (v : V8 W64 × V8 V256 × Arr 128 8 × Arr 128 40) (i : Nat) :
    Option (V8 W64 × V8 V256 × Arr 128 8 × Arr 128 40) := do
  let state := v.1
  let x0 := v.2.1
  let data ← Raw.add o.region o.addr (128 * i)
  let x ← all8 fun i => do
    let hi ← loadFrom o data (8 + i)
    let lo ← loadFrom o data i
    let xi := mm256_insertf128_si256 (x0.get i) hi 1
    let xi := mm256_insertf128_si256 xi lo 0
    pure (mm256_shuffle_epi8 xi MASK2)
  let kv ← all8 fun i => k.loadAt 8 (i * 2)
  let y := fun i => mm256_add_epi64 (x.get i) (mm256_set_m128i (kv.get i) (kv.get i))
  let ms ← fillC v.2.2.1 fun i => mm256_extracti128_si256 (y i) 0
  let t2 ← fillC v.2.2.2 fun i => mm256_extracti128_si256 (y i) 1
  -- First block
  let w ← mainLoop2C k { s := state, x := x, ms := ms, t2 := t2, idx := 16 }
  let cur ← lastLoopC bigSigma0_512 bigSigma1_512 2 w.ms w.s
  let state ← accumulateC state cur
  -- Second block
  let cur ← secondC w.t2 state
  let state ← accumulateC state cur
  pure (state, w.x, w.ms, w.t2)

/-- x86_avx2.rs:31-36: with an odd number `n` of blocks the first one is processed alone, through `&blocks[0]`. -/
def firstC (k o : Raw.Obj) (n : Nat) (state : V8 W64) : Option (V8 W64 × Nat) :=
  if n % 2 ≠ 0 then do
    Rs.check (0 < n)
    let s ← avxBlockC k state ⟨o.addr, o.data.take 128⟩
    pure (s, 1)
  else pure (state, 0)

/-- `sha512_compress_x86_64_avx2`, x86_avx2.rs:29-55, on `n` blocks; `(start..n).step_by(2)` has `(n - start + 1) / 2` elements. -/
def avx2C (kAddr : Nat) (state : V8 W64) (o : Raw.Obj) (n : Nat) : Option (V8 W64) := do
  let k := tableObj kAddr Sha512.K64
  let zero : V128 := 0
  let first ← firstC k o n state
  let v ← Rs.loop ((n - first.2 + 1) / 2) (first.1, V8.ofFn fun _ => (zero, zero), Arr.ofFn 8 fun _ => zero, Arr.ofFn 40 fun _ => zero)
    fun v i => avx2PairC k o v (first.2 + 2 * i)
  pure v.1
end Avx

end Hashes.Sha2Simd
