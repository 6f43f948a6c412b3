import Verif.Base.LeakRaw
import Verif.Checked.Sha2Simd
/- Sha2Simd with what an observer of the memory accesses and branches sees (Base/Leak.lean); written by tools/gen_leak.py from
Verif/Checked/Sha2Simd.lean, which says what is modelled. -/
namespace Hashes.Sha2Simd
open Simd

/-- `a[i]` for an array of registers. -/
def idxAL {w n : Nat} (a : Arr w n) (i : Nat) : Leak (BitVec w) := Leak.emit (.index i) (Sha2Simd.idxA a i)
/-- `a[i] = v` -/
def updAL {w n : Nat} (a : Arr w n) (i : Nat) (v : BitVec w) : Leak (Arr w n) := Leak.emit (.index i) (Sha2Simd.updA a i v)

/-- `f(0), .., f(7)`: an unrolled macro. -/
def all8L {α : Type} (f : Nat → Leak α) : Leak (V8 α) := do
  pure ⟨← f 0, ← f 1, ← f 2, ← f 3, ← f 4, ← f 5, ← f 6, ← f 7⟩
def all4L {α : Type} (f : Nat → Leak α) : Leak (V4 α) := do
  pure ⟨← f 0, ← f 1, ← f 2, ← f 3⟩

/-- Word `i`: `cast_ms(ms)[i]` / `cast_rs(t2)[i]` (x86_avx2.rs:339-347), or `ms[j]` and a literal lane (wasm32.rs).  Word `i` exists
iff register `i / L` does. -/
def wordL (w L : Nat) {n : Nat} (ms : Arr 128 n) (i : Nat) : Leak (BitVec w) := do
  let r ← idxAL ms (i / L)
  pure (lane w (i % L) r)

/-- The rounds of one message register. -/
def roundsRegL {w n : Nat} (S0 S1 : BitVec w → BitVec w) (L : Nat) (ms : Arr 128 n) (j : Nat) (s : V8 (BitVec w)) :
    Leak (V8 (BitVec w)) :=
  Leak.loop L s fun s l => do
    let x ← wordL w L ms (L * j + l)
    pure (shaRound S0 S1 s x)

/-- Body of the two nested loops, x86_avx2.rs:131-141, sha512/wasm32.rs:48-58, sha256/wasm32.rs:49-61; `k` is the table. -/
def bodyL {w : Nat} {X : Type} (k : Raw.Obj) (o : Ops w X) (v : St w o.L X) (j : Nat) : Leak (St w o.L X) := do
  let kv ← k.loadAtL (w / 8) v.idx
  let u := o.update v.x kv
  let s ← roundsRegL o.S0 o.S1 o.L v.ms j v.s
  let ms ← updAL v.ms j u.2
  pure { s := s, x := u.1, ms := ms, idx := v.idx + o.L }

/-- `rounds_0_63_avx` (x86_avx2.rs:126-144), `rounds_0_63` (sha512/wasm32.rs:43-61), `rounds_0_47` (sha256/wasm32.rs:44-64) -/
def mainLoopL {w : Nat} {X : Type} (k : Raw.Obj) (o : Ops w X) (v : St w o.L X) : Leak (St w o.L X) :=
  Leak.loop o.groups v fun v _ => Leak.loop (16 / o.L) v (bodyL k o)

/-- `rounds_64_79` (x86_avx2.rs:175-180: word `i & 0xf` for `i` from 64; sha512/wasm32.rs:64-70), `rounds_48_63`
(sha256/wasm32.rs:67-75): in the last two, the words of the registers in order. -/
def lastLoopL {w n : Nat} (S0 S1 : BitVec w → BitVec w) (L : Nat) (ms : Arr 128 n) (s : V8 (BitVec w)) : Leak (V8 (BitVec w)) :=
  Leak.loop 16 s fun s i => do
    let x ← wordL w L ms ((64 + i) % 16)
    pure (shaRound S0 S1 s x)

/-- `accumulate_state` -/
def accumulateL {w : Nat} (dst src : V8 (BitVec w)) : Leak (V8 (BitVec w)) :=
  all8L fun i => do
    let a ← Leak.idx dst.toList i
    let b ← Leak.idx src.toList i
    pure (a + b)

/-- One block from the loaded data. -/
def blockWithL {w : Nat} {X : Type} (k : Raw.Obj) (o : Ops w X) (state : V8 (BitVec w)) (x : X) (ms : Arr 128 (16 / o.L)) :
    Leak (V8 (BitVec w)) := do
  let v ← mainLoopL k o { s := state, x := x, ms := ms, idx := 16 }
  let cur ← lastLoopL o.S0 o.S1 o.L v.ms v.s
  accumulateL state cur

/-- One block of sha512/wasm32.rs:12-20 with `load_data` :24-40: `data.add(i)` and `K64.as_ptr().add(2 * i)`. -/
def wasmBlock512L (k : Raw.Obj) (state : V8 W64) (block : Raw.Obj) : Leak (V8 W64) := do
  let x ← all8L fun i => do
    let v ← block.loadAtL 16 i
    pure (Wasm.i8x16_shuffle swap64 v v)
  let kv ← all8L fun i => k.loadAtL 8 (2 * i)
  let ms := Arr.ofFn 8 fun i => Wasm.i64x2_add (x.get i) (kv.get i)
  blockWithL k wasmOps512 state x ms

/-- `compress`, sha512/wasm32.rs:8-21 -/
def wasm512L (kAddr : Nat) (state : V8 W64) (blks : List Raw.Obj) : Leak (V8 W64) :=
  blks.foldlM (wasmBlock512L (tableObj kAddr Sha512.K64)) state

/-- One block of sha256/wasm32.rs:13-21 with `load_data` :25-41. -/
def wasmBlock256L (k : Raw.Obj) (state : V8 W32) (block : Raw.Obj) : Leak (V8 W32) := do
  let x ← all4L fun i => do
    let v ← block.loadAtL 16 i
    pure (Wasm.i8x16_shuffle swap32 v v)
  let kv ← all4L fun i => k.loadAtL 4 (4 * i)
  let ms := Arr.ofFn 4 fun i => Wasm.u32x4_add (x.get i) (kv.get i)
  blockWithL k wasmOps256 state x ms

/-- `compress`, sha256/wasm32.rs:7-22 -/
def wasm256L (kAddr : Nat) (state : V8 W32) (blks : List Raw.Obj) : Leak (V8 W32) :=
  blks.foldlM (wasmBlock256L (tableObj kAddr Sha256.K32)) state

section Avx
open X86

/-- `sha512_compress_x86_64_avx` (x86_avx2.rs:58-68) with `load_data_avx` (:71-90). -/
def avxBlockL (k : Raw.Obj) (state : V8 W64) (block : Raw.Obj) : Leak (V8 W64) := do
  let x ← all8L fun i => do
    let v ← block.loadAtL 16 i
    pure (mm_shuffle_epi8 v MASK)
  let kv ← all8L fun i => k.loadAtL 8 (2 * i)
  let ms := Arr.ofFn 8 fun i => mm_add_epi64 (x.get i) (kv.get i)
  blockWithL k avxOps state x ms

/-- Body of the loops of `rounds_0_63_avx2`, x86_avx2.rs:157-169. -/
def body2L (k : Raw.Obj) (i : Nat) (v : St2) (j : Nat) : Leak St2 := do
  let t ← k.loadAtL 8 v.idx
  let u := avx2Update v.x (mm256_set_m128i t t)
  let y := u.2
  let s ← roundsRegL bigSigma0_512 bigSigma1_512 2 v.ms j v.s
  let ms ← updAL v.ms j (mm256_extracti128_si256 y 0)
  let t2 ← updAL v.t2 (8 * i + j) (mm256_extracti128_si256 y 1)
  pure { s := s, x := u.1, ms := ms, t2 := t2, idx := v.idx + 2 }

/-- `rounds_0_63_avx2`, x86_avx2.rs:147-172; `for i in 1..5` -/
def mainLoop2L (k : Raw.Obj) (v : St2) : Leak St2 :=
  Leak.loop 4 v fun v i => Leak.loop 8 v (body2L k (1 + i))

/-- `ms[$i] = ..` / `t2[$i] = ..` of `load_data_avx2`. -/
def fillL {n : Nat} (a : Arr 128 n) (f : Nat → V128) : Leak (Arr 128 n) := Leak.loop 8 a fun a i => updAL a i (f i)

/-- `process_second_block`, x86_avx2.rs:183-187 -/
def secondL (t2 : Arr 128 40) (s : V8 W64) : Leak (V8 W64) :=
  Leak.loop 80 s fun s i => do
    let x ← wordL 64 2 t2 i
    pure (shaRound bigSigma0_512 bigSigma1_512 s x)

/-- `_mm_loadu_si128(data.add(j).cast())` where `data` points into `o` at address `p`. -/
def loadFromL (o : Raw.Obj) (p j : Nat) : Leak V128 := do
  let q ← Raw.addL o.region p (16 * j)
  o.loaduL q

/-- The loop body over the blocks `i`, `i + 1`, x86_avx2.rs:41-54, with `load_data_avx2` (:93-123); `o` is the slice of all blocks, and
`blocks.as_ptr().add(i)` moves by `128 * i` bytes. -/
def avx2PairL (k o : Raw.Obj) (v : V8 W64 × V8 V256 × Arr 128 8 × Arr 128 40) (i : Nat) :
    Leak (V8 W64 × V8 V256 × Arr 128 8 × Arr 128 40) := do
  let state := v.1
  let x0 := v.2.1
  let data ← Raw.addL o.region o.addr (128 * i)
  let x ← all8L fun i => do
    let hi ← loadFromL o data (8 + i)
    let lo ← loadFromL o data i
    let xi := mm256_insertf128_si256 (x0.get i) hi 1
    let xi := mm256_insertf128_si256 xi lo 0
    pure (mm256_shuffle_epi8 xi MASK2)
  let kv ← all8L fun i => k.loadAtL 8 (i * 2)
  let y := fun i => mm256_add_epi64 (x.get i) (mm256_set_m128i (kv.get i) (kv.get i))
  let ms ← fillL v.2.2.1 fun i => mm256_extracti128_si256 (y i) 0
  let t2 ← fillL v.2.2.2 fun i => mm256_extracti128_si256 (y i) 1
  -- First block
  let w ← mainLoop2L k { s := state, x := x, ms := ms, t2 := t2, idx := 16 }
  let cur ← lastLoopL bigSigma0_512 bigSigma1_512 2 w.ms w.s
  let state ← accumulateL state cur
  -- Second block
  let cur ← secondL w.t2 state
  let state ← accumulateL state cur
  pure (state, w.x, w.ms, w.t2)

/-- x86_avx2.rs:31-36: with an odd number `n` of blocks the first one is processed alone, through `&blocks[0]`. -/
def firstL (k o : Raw.Obj) (n : Nat) (state : V8 W64) : Leak (V8 W64 × Nat) :=
  Leak.branch (n % 2 ≠ 0) (do
    Leak.check (0 < n)
    let s ← avxBlockL k state ⟨o.addr, o.data.take 128⟩
    pure (s, 1)) (pure (state, 0))

/-- `sha512_compress_x86_64_avx2`, x86_avx2.rs:29-55, on `n` blocks; `(start..n).step_by(2)` has `(n - start + 1) / 2` elements. -/
def avx2L (kAddr : Nat) (state : V8 W64) (o : Raw.Obj) (n : Nat) : Leak (V8 W64) := do
  let k := tableObj kAddr Sha512.K64
  let zero : V128 := 0
  let first ← firstL k o n state
  let v ← Leak.loop ((n - first.2 + 1) / 2) (first.1, V8.ofFn fun _ => (zero, zero), Arr.ofFn 8 fun _ => zero, Arr.ofFn 40 fun _ => zero)
    fun v i => avx2PairL k o v (first.2 + 2 * i)
  pure v.1
end Avx

end Hashes.Sha2Simd
