import Verif.Checked.Blake2
/-
Whole BLAKE2 MACs with Rust's run-time checks: /repo/blake2/src/macros.rs:272-489.  `none` is a panic, after which the object
is not used any more.  The constructors are in Checked/Blake2.lean.
-/
namespace Hashes.Blake2
open Rs
variable {w : Nat}

/-- `update`, macros.rs:384-387. -/
def Mac.updateC (c : Cfg w) (m : Mac w) (input : Bytes) : Option (Mac w) := do
  let r := m.buffer.digestBlocks .lazy c.blockSize input (fun (s : Option (State w)) blks => s.bind fun s => blks.foldlM (updateBlockC c) s) (some m.core)
  let core ← r.2
  pure { m with core := core, buffer := r.1 }

/-- `finalize_into`, macros.rs:404-409, on an output array of `outSize` bytes. -/
def Mac.finalizeC (c : Cfg w) (outSize : Nat) (m : Mac w) : Option Bytes := do
  let full ← Blake2.finalizeC c m.core m.buffer (List.replicate c.bytes 0)
  copy (List.replicate outSize (0 : Byte)) 0 outSize (← slice full 0 outSize)

/-- `reset`, macros.rs:418-428. -/
def Mac.resetC (c : Cfg w) (m : Mac w) : Option (Mac w) := do
  let buffer ← keyBufferC c.blockSize m.keyBlock
  pure { m with core := Blake2.reset m.core, buffer := buffer }

/-- A sequence of calls on a live object: the tags, or `none` if a call panics (`finalizeReset` is macros.rs:438-444). -/
def Mac.runC (c : Cfg w) (outSize : Nat) (m : Mac w) : List MacOp → Option (List Bytes)
  | [] => some []
  | .update d :: ops => do
    let m ← m.updateC c d
    Mac.runC c outSize m ops
  | .reset :: ops => do
    let m ← m.resetC c
    Mac.runC c outSize m ops
  | .finalizeReset :: ops => do
    let t ← m.finalizeC c outSize
    let m ← m.resetC c
    let l ← Mac.runC c outSize m ops
    pure (t :: l)
  | .finalizeClone :: ops => do
    let t ← m.finalizeC c outSize
    let l ← Mac.runC c outSize m ops
    pure (t :: l)

/-- `new_with_salt_and_personal` followed by such a sequence: `none` is a panic, `some none` is `Err(InvalidLength)`. -/
def macC (c : Cfg w) (outSize : Nat) (key : Option Bytes) (salt persona : Bytes) (ops : List MacOp) : Option (Option (List Bytes)) := do
  match ← newWithSaltAndPersonalC c outSize key salt persona with
  | some m => do
    let l ← m.runC c outSize ops
    pure (some l)
  | none => pure none

/-- `new_from_slice` followed by such a sequence. -/
def macSliceC (c : Cfg w) (outSize : Nat) (key : Bytes) (ops : List MacOp) : Option (Option (List Bytes)) := do
  match ← newFromSliceC c outSize key with
  | some m => do
    let l ← m.runC c outSize ops
    pure (some l)
  | none => pure none

end Hashes.Blake2
