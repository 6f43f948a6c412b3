import Verif.Base.Leak
import Verif.Checked.Ascon
/- Ascon with what an observer of the memory accesses and branches sees (Base/Leak.lean); written by tools/gen_leak.py from
Verif/Checked/Ascon.lean, which says what is modelled. -/
namespace Hashes.Ascon
open Leak
/-- `tmp[0..len].copy_from_slice(block)` and the xor, lib.rs:88-91. -/
def xorLastL (s : State) (block : Bytes) : Leak State :=
  branch (block.length > 0) (do
    let tmp ← copy (List.replicate 8 0) 0 block.length block
    let y ← fromLe 64 tmp
    pure { s with x0 := s.x0 ^^^ y }) (pure s)

/-- `absorb_last_block`, lib.rs:83-94, and `pad`, lib.rs:27-29. -/
def absorbLastBlockL (P : State → State) (s : State) (block : Bytes) : Leak State := do
  check (block.length < 8)
  let s ← xorLastL s block
  let p ← shl (0x01 : W64) (8 * block.length)
  pure (P { s with x0 := s.x0 ^^^ p })

/-- The loop of `squeeze`, lib.rs:100-105. -/
def squeezeLoopL (P : State → State) (s : State) (block : Bytes) : Leak Bytes :=
  if _h : block.length > 8 then do
    let _ ← emit (.branch true) (some ())
    let b ← copy block 0 8 (leBytes 8 s.x0.toNat)
    let _ ← slice block 8 block.length
    let r ← squeezeLoopL P (P s) (block.drop 8)
    pure (b.take 8 ++ r)
  else do
    let _ ← emit (.branch false) (some ())
    copy block 0 8 (leBytes 8 s.x0.toNat)
termination_by block.length
decreasing_by simp only [List.length_drop]; omega

/-- `squeeze`, lib.rs:97-106. -/
def squeezeL (P : State → State) (s : State) (block : Bytes) : Leak Bytes := do
  check (block.length % 8 = 0)
  squeezeLoopL P s block

/-- `absorb_block`, lib.rs:78-81. -/
def absorbBlockL (P : State → State) (s : State) (block : Bytes) : Leak State := do
  let y ← fromLe 64 block
  pure (P { s with x0 := s.x0 ^^^ y })

/-- `finalize_xof_core`, lib.rs:222-229 (and the first half of `finalize_fixed_core`). -/
def finalizeXofL (P : State → State) (s : State) (buffer : BlockBuffer) : Leak State := do
  check (buffer.pos < 8)
  let d ← slice buffer.data 0 buffer.pos
  absorbLastBlockL P s d

/-- `finalize_fixed_core`, lib.rs:159-164. -/
def finalizeL (P : State → State) (s : State) (buffer : BlockBuffer) (out : Bytes) : Leak Bytes := do
  let s ← finalizeXofL P s buffer
  squeezeL P s out

end Hashes.Ascon
