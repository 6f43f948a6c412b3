import Verif.Base.Rust
import Verif.Model.Skein
/- Skein with Rust's run-time checks: /repo/skein/src/lib.rs. `none` is a panic; the block cipher (crate threefish) is `E`. -/
namespace Hashes.Skein
open Rs
variable {n : Nat}

/-- `encrypt_block_u64` on lists of words (external; total on arrays of `n` words). -/
abbrev CipherC := List W64 → W64 × W64 → List W64 → List W64

/-- `$name<N>`, lib.rs:48-52. -/
structure StateC where
  t0 : W64
  t1 : W64
  x : List W64
deriving DecidableEq

/-- `process_block`, lib.rs:67-85, for a state of `n` words. -/
def processBlockC (E : CipherC) (n : Nat) (s : StateC) (block : Bytes) (byteCountAdd : Nat) : Option StateC := do
  let t0 ← add s.t0 (BitVec.ofNat 64 byteCountAdd)
  let t ← load (List.replicate n 0) block 8 (fromLe 64)
  let y := E s.x (t0, s.t1) t
  let x ← loop n s.x fun x i => do
    let a ← idx t i
    let b ← idx y i
    upd x i (a ^^^ b)
  pure ⟨t0, s.t1 &&& ~~~T1_FLAG_FIRST, x⟩

/-- The body of the output loop, lib.rs:122-131: chunk `i`, with the array `block` of the iteration before. -/
def outChunkC (E : CipherC) (n : Nat) (x : List W64) (block : Bytes) (i : Nat) (chunk : Bytes) : Option (Bytes × Bytes) := do
  let ctr : StateC := ⟨0, T1_FLAG_FIRST ||| T1_BLK_TYPE_OUT ||| T1_FLAG_FINAL, x⟩
  let block ← copy block 0 8 (leBytes 8 (BitVec.ofNat 64 i).toNat)
  let ctr ← processBlockC E n ctr block 8
  let chunk ← store chunk ctr.x 8 fun y => leBytes 8 y.toNat
  pure (block, chunk)

/-- `for (i, chunk) in out.chunks_mut(STATE_BYTES).enumerate()`, lib.rs:122-131. -/
def outLoopC (E : CipherC) (n : Nat) (x : List W64) : Bytes → Nat → List Bytes → Option (List Bytes)
  | _, _, [] => some []
  | block, i, chunk :: l => do
    let r ← outChunkC E n x block i chunk
    let l ← outLoopC E n x r.1 (i + 1) l
    pure (r.2 :: l)

/-- `out.chunks_mut(k)`: the last chunk may be shorter. -/
def chunksMut (k : Nat) (out : Bytes) : List Bytes := (List.range ((out.length + k - 1) / k)).map fun i => (out.drop (k * i)).take k

/-- `finalize_fixed_core`, lib.rs:113-132. -/
def finalizeC (E : CipherC) (n : Nat) (s : StateC) (buffer : BlockBuffer) (out : Bytes) : Option Bytes := do
  let s := { s with t1 := s.t1 ||| T1_FLAG_FINAL }
  let pos := buffer.pos
  let finalBlock := (buffer.padWithZeros (8 * n)).1
  let s ← processBlockC E n s finalBlock pos
  let l ← outLoopC E n s.x (List.replicate (8 * n) 0) 0 (chunksMut (8 * n) out)
  pure l.flatten

/-- `Default`, lib.rs:136-154. -/
def initC (E : CipherC) (n N : Nat) : Option StateC := do
  let state : StateC := ⟨0, T1_FLAG_FIRST ||| T1_BLK_TYPE_CFG ||| T1_FLAG_FINAL, List.replicate n 0⟩
  let cfg ← copy (List.replicate (8 * n) 0) 0 8 (leBytes 8 SCHEMA_VER.toNat)
  let bits ← mul (BitVec.ofNat 64 N) 8
  let cfg ← copy cfg 8 16 (leBytes 8 bits.toNat)
  let cfg ← copy cfg 16 24 (leBytes 8 0)
  let state ← processBlockC E n state cfg CFG_STR_LEN
  pure { state with t0 := 0, t1 := T1_FLAG_FIRST ||| T1_BLK_TYPE_MSG }

end Hashes.Skein
