import Verif.Base.Leak
import Verif.Checked.Skein
/- Skein with what an observer of the memory accesses and branches sees (Base/Leak.lean); written by tools/gen_leak.py from
Verif/Checked/Skein.lean, which says what is modelled. -/
namespace Hashes.Skein
open Leak
variable {n : Nat}

/-- `process_block`, lib.rs:67-85, for a state of `n` words. -/
def processBlockL (E : CipherC) (n : Nat) (s : StateC) (block : Bytes) (byteCountAdd : Nat) : Leak StateC := do
  let t0 ← add s.t0 (BitVec.ofNat 64 byteCountAdd)
  let t ← load (List.replicate n 0) block 8 (fromLe 64)
  let y := E s.x (t0, s.t1) t
  let x ← loop n s.x fun x i => do
    let a ← idx t i
    let b ← idx y i
    upd x i (a ^^^ b)
  pure ⟨t0, s.t1 &&& ~~~T1_FLAG_FIRST, x⟩

/-- The body of the output loop, lib.rs:122-131: chunk `i`, with the array `block` of the iteration before. -/
def outChunkL (E : CipherC) (n : Nat) (x : List W64) (block : Bytes) (i : Nat) (chunk : Bytes) : Leak (Bytes × Bytes) := do
  let ctr : StateC := ⟨0, T1_FLAG_FIRST ||| T1_BLK_TYPE_OUT ||| T1_FLAG_FINAL, x⟩
  let block ← copy block 0 8 (leBytes 8 (BitVec.ofNat 64 i).toNat)
  let ctr ← processBlockL E n ctr block 8
  let chunk ← store chunk ctr.x 8 fun y => leBytes 8 y.toNat
  pure (block, chunk)

/-- `for (i, chunk) in out.chunks_mut(STATE_BYTES).enumerate()`, lib.rs:122-131. -/
def outLoopL (E : CipherC) (n : Nat) (x : List W64) : Bytes → Nat → List Bytes → Leak (List Bytes)
  | _, _, [] => pure []
  | block, i, chunk :: l => do
    let r ← outChunkL E n x block i chunk
    let l ← outLoopL E n x r.1 (i + 1) l
    pure (r.2 :: l)

/-- `finalize_fixed_core`, lib.rs:113-132. -/
def finalizeL (E : CipherC) (n : Nat) (s : StateC) (buffer : BlockBuffer) (out : Bytes) : Leak Bytes := do
  let s := { s with t1 := s.t1 ||| T1_FLAG_FINAL }
  let pos := buffer.pos
  let finalBlock := (buffer.padWithZeros (8 * n)).1
  let s ← processBlockL E n s finalBlock pos
  let l ← outLoopL E n s.x (List.replicate (8 * n) 0) 0 (chunksMut (8 * n) out)
  pure l.flatten

/-- `Default`, lib.rs:136-154. -/
def initL (E : CipherC) (n N : Nat) : Leak StateC := do
  let state : StateC := ⟨0, T1_FLAG_FIRST ||| T1_BLK_TYPE_CFG ||| T1_FLAG_FINAL, List.replicate n 0⟩
  let cfg ← copy (List.replicate (8 * n) 0) 0 8 (leBytes 8 SCHEMA_VER.toNat)
  let bits ← mul (BitVec.ofNat 64 N) 8
  let cfg ← copy cfg 8 16 (leBytes 8 bits.toNat)
  let cfg ← copy cfg 16 24 (leBytes 8 0)
  let state ← processBlockL E n state cfg CFG_STR_LEN
  pure { state with t0 := 0, t1 := T1_FLAG_FIRST ||| T1_BLK_TYPE_MSG }

end Hashes.Skein
