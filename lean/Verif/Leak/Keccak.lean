import Verif.Base.Leak
import Verif.Checked.Keccak
/- Keccak with what an observer of the memory accesses and branches sees (Base/Leak.lean); written by tools/gen_leak.py from
Verif/Checked/Keccak.lean, which says what is modelled. -/
namespace Hashes.Sha3
open Leak
/-- The loop of `absorb_block`, state.rs:21-23; `zip` stops at the shorter side. -/
def xorLanesL : List Bytes → Lanes → Leak Lanes
  | b :: bs, s :: ss => do
    let y ← fromLe 64 b
    let r ← xorLanesL bs ss
    pure ((s ^^^ y) :: r)
  | _, ss => pure ss

/-- `absorb_block`, state.rs:18-26. -/
def absorbBlockL (f : Lanes → Lanes) (s : Lanes) (block : Bytes) : Leak Lanes := do
  check (block.length % 8 = 0)
  let s ← xorLanesL (chunks 8 block) s
  pure (f s)

/-- The loop of `as_bytes`, state.rs:29-31; chunks beyond the state keep their content. -/
def asBytesLoopL : List Bytes → Lanes → Leak (List Bytes)
  | o :: os, s :: ss => do
    let y ← slice (leBytes 8 s.toNat) 0 o.length
    let o ← copy o 0 o.length y
    let r ← asBytesLoopL os ss
    pure (o :: r)
  | os, _ => pure os

/-- `as_bytes`, state.rs:28-32. -/
def asBytesL (s : Lanes) (out : Bytes) : Leak Bytes := do
  let l ← asBytesLoopL (chunksMut8 out) s
  pure l.flatten

/-- `block[pos] = pad; block[n - 1] |= 0x80`, macros.rs:45-49, 184-188, 353-357, 554-558. -/
def lastBlockL (bs : Nat) (buffer : BlockBuffer) (pad : Byte) : Leak Bytes := do
  let pos := buffer.pos
  let block := (buffer.padWithZeros bs).1
  let block ← upd block pos pad
  let n := block.length
  let i ← usub n 1
  let y ← idx block i
  upd block i (y ||| 0x80)

/-- `finalize_fixed_core`, macros.rs:44-55. -/
def finalizeL (f : Lanes → Lanes) (rate : Nat) (pad : Byte) (s : Lanes) (buffer : BlockBuffer) (out : Bytes) : Leak Bytes := do
  let block ← lastBlockL rate buffer pad
  let s ← absorbBlockL f s block
  asBytesL s out

/-- `finalize_xof_core`, macros.rs:183-193, :352-362, :553-563. -/
def finalizeXofL (f : Lanes → Lanes) (rate : Nat) (pad : Byte) (s : Lanes) (buffer : BlockBuffer) : Leak Lanes := do
  let block ← lastBlockL rate buffer pad
  absorbBlockL f s block

/-- `read_block`, macros.rs:256-261, :417-422, :621-626. -/
def readBlockL (f : Lanes → Lanes) (rate : Nat) (s : Lanes) : Leak (Bytes × Lanes) := do
  let block ← asBytesL s (List.replicate rate 0)
  pure (block, f s)

end Hashes.Sha3
