import Verif.Base.Rust
import Verif.Model.Ascon
/- Ascon-Hash256 and Ascon-XOF128 with Rust's run-time checks and debug assertions: /repo/ascon-hash/src/lib.rs. `none` is a panic. -/
namespace Hashes.Ascon
open Rs

/-- `tmp[0..len].copy_from_slice(block)` and the xor, lib.rs:88-91. -/
def xorLastC (s : State) (block : Bytes) : Option State :=
  if block.length > 0 then do
    let tmp ← copy (List.replicate 8 0) 0 block.length block
    let y ← fromLe 64 tmp
    pure { s with x0 := s.x0 ^^^ y }
  else some s

/-- `absorb_last_block`, lib.rs:83-94, and `pad`, lib.rs:27-29. -/
def absorbLastBlockC (P : State → State) (s : State) (block : Bytes) : Option State := do
  check (block.length < 8)
  let s ← xorLastC s block
  let p ← shl (0x01 : W64) (8 * block.length)
  pure (P { s with x0 := s.x0 ^^^ p })

/-- The loop of `squeeze`, lib.rs:100-105. -/
def squeezeLoopC (P : State → State) (s : State) (block : Bytes) : Option Bytes :=
  if _h : block.length > 8 then do
    let b ← copy block 0 8 (leBytes 8 s.x0.toNat)
    let _ ← slice block 8 block.length
    let r ← squeezeLoopC P (P s) (block.drop 8)
    pure (b.take 8 ++ r)
  else copy block 0 8 (leBytes 8 s.x0.toNat)
termination_by block.length
decreasing_by simp only [List.length_drop]; omega

/-- `squeeze`, lib.rs:97-106. -/
def squeezeC (P : State → State) (s : State) (block : Bytes) : Option Bytes := do
  check (block.length % 8 = 0)
  squeezeLoopC P s block

/-- `absorb_block`, lib.rs:78-81. -/
def absorbBlockC (P : State → State) (s : State) (block : Bytes) : Option State := do
  let y ← fromLe 64 block
  pure (P { s with x0 := s.x0 ^^^ y })

/-- `finalize_xof_core`, lib.rs:222-229 (and the first half of `finalize_fixed_core`). -/
def finalizeXofC (P : State → State) (s : State) (buffer : BlockBuffer) : Option State := do
  check (buffer.pos < 8)
  let d ← slice buffer.data 0 buffer.pos
  absorbLastBlockC P s d

/-- `finalize_fixed_core`, lib.rs:159-164. -/
def finalizeC (P : State → State) (s : State) (buffer : BlockBuffer) (out : Bytes) : Option Bytes := do
  let s ← finalizeXofC P s buffer
  squeezeC P s out

end Hashes.Ascon
