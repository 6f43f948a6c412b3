import Verif.Leak.Run
import Verif.Checked.Blake2Mac
/-
Whole BLAKE2 MACs with what an observer of the memory accesses and branches sees: Checked/Blake2.lean (constructors) and
Checked/Blake2Mac.lean with the operations of Base/Leak.lean.  The conditions joined by `&&` and `||` are branches one by one, as Rust
evaluates them.  Not recorded: the writes to the array `p` of `new_with_params` at constant indices.  Comparing tags (`verify`) is
the external crates digest and subtle.
-/
namespace Hashes.Blake2
open Leak
variable {w : Nat}

/-- The two words of the salt or of the personalisation, macros.rs:46-61 and :64-80. -/
def twoWordsL (w length full : Nat) (x : Bytes) : Leak (V2 (BitVec w)) :=
  branch (x.length < length) (do
    let padded ← loop x.length (List.replicate length 0) fun p i => do
      let y ← idx x i
      upd p i y
    let a ← slice padded 0 (length / 2)
    let a ← fromLe w a
    let b ← slice padded (length / 2) padded.length
    let b ← fromLe w b
    pure ⟨a, b⟩)
  (do
    let a ← slice x 0 full
    let a ← fromLe w a
    let b ← slice x full x.length
    let b ← fromLe w b
    pure ⟨a, b⟩)

/-- `new_with_params`, macros.rs:27-92. -/
def newWithParamsL (c : Cfg w) (salt persona : Bytes) (keySize outputSize : Nat) : Leak (State w) := do
  check (keySize ≤ c.bytes)
  check (outputSize ≤ c.bytes)
  let length := c.bytes / 4
  check (salt.length ≤ length)
  check (persona.length ≤ length)
  let k ← shl (BitVec.ofNat w keySize) 8
  let p0 : BitVec w := (0x01010000 ^^^ k) ^^^ BitVec.ofNat w outputSize
  let p45 ← twoWordsL w length (salt.length / 2) salt
  let p67 ← twoWordsL w length (length / 2) persona
  let h : V2 (Vec w) := ⟨c.iv0.xor ⟨p0, 0, 0, 0⟩, c.iv1.xor ⟨p45.x0, p45.x1, p67.x0, p67.x1⟩⟩
  pure ⟨h, 0, h⟩

/-- The key block of `n` bytes, macros.rs:319-321, :327-331, :361-369, :421-423. -/
def paddedL (n : Nat) (k : Bytes) : Leak Bytes := copy (List.replicate n 0) 0 k.length k

/-- `key_block`, macros.rs:327-331: whether there is a key is seen. -/
def keyBlockL (n : Nat) : Option Bytes → Leak (Option Bytes)
  | some k => do
    let _ ← emit (.branch true) (some ())
    let t ← paddedL n k
    pure (some t)
  | none => do
    let _ ← emit (.branch false) (some ())
    pure none

/-- `buffer`, macros.rs:318-324 and :420-427. -/
def keyBufferL (n : Nat) : Option Bytes → Leak BlockBuffer
  | some k => do
    let _ ← emit (.branch true) (some ())
    let t ← paddedL n k
    pure (bufferOf t)
  | none => do
    let _ ← emit (.branch false) (some ())
    pure (BlockBuffer.empty n)

/-- The condition of macros.rs:315. -/
def invalidL (bs : Nat) (key : Option Bytes) (salt persona : Bytes) : Leak Bool :=
  let rest := branch (keyLen key > bs) (pure true) (branch (salt.length > bs / 4) (pure true) (branch (persona.length > bs / 4) (pure true) (pure false)))
  branch (key.isSome = true) (branch (keyLen key = 0) (pure true) rest) rest

/-- `new_with_salt_and_personal`, macros.rs:306-335: `none` is `Err(InvalidLength)`. -/
def newWithSaltAndPersonalL (c : Cfg w) (outSize : Nat) (key : Option Bytes) (salt persona : Bytes) : Leak (Option (Mac w)) := do
  let e ← invalidL c.blockSize key salt persona
  if e then pure none
  else do
    let buffer ← keyBufferL c.blockSize key
    let core ← newWithParamsL c salt persona (keyLen key) outSize
    let kb ← keyBlockL c.bytes key
    pure (some ⟨core, buffer, kb⟩)

/-- `new_from_slice`, macros.rs:357-375. -/
def newFromSliceL (c : Cfg w) (outSize : Nat) (key : Bytes) : Leak (Option (Mac w)) :=
  branch (key.length > c.bytes) (pure none) (do
    let block ← paddedL c.blockSize key
    let core ← newWithParamsL c [] [] key.length outSize
    let kb ← paddedL c.bytes key
    pure (some ⟨core, bufferOf block, some kb⟩))

/-- `update`, macros.rs:384-387. -/
def Mac.updateL (c : Cfg w) (m : Mac w) (input : Bytes) : Leak (Mac w) := do
  let r ← digestBlocksL .lazy c.blockSize m.buffer input (fun s blks => blks.foldlM (updateBlockL c) s) m.core
  pure { m with core := r.2, buffer := r.1 }

/-- `finalize_into`, macros.rs:404-409. -/
def Mac.finalizeL (c : Cfg w) (outSize : Nat) (m : Mac w) : Leak Bytes := do
  let full ← Blake2.finalizeL c m.core m.buffer (List.replicate c.bytes 0)
  copy (List.replicate outSize (0 : Byte)) 0 outSize (← slice full 0 outSize)

/-- `reset`, macros.rs:418-428. -/
def Mac.resetL (c : Cfg w) (m : Mac w) : Leak (Mac w) := do
  let buffer ← keyBufferL c.blockSize m.keyBlock
  pure { m with core := Blake2.reset m.core, buffer := buffer }

/-- A sequence of calls on a live object (`finalizeReset` is macros.rs:438-444). -/
def Mac.runL (c : Cfg w) (outSize : Nat) (m : Mac w) : List MacOp → Leak (List Bytes)
  | [] => pure []
  | .update d :: ops => do
    let m ← m.updateL c d
    Mac.runL c outSize m ops
  | .reset :: ops => do
    let m ← m.resetL c
    Mac.runL c outSize m ops
  | .finalizeReset :: ops => do
    let t ← m.finalizeL c outSize
    let m ← m.resetL c
    let l ← Mac.runL c outSize m ops
    pure (t :: l)
  | .finalizeClone :: ops => do
    let t ← m.finalizeL c outSize
    let l ← Mac.runL c outSize m ops
    pure (t :: l)

/-- What follows a constructor. -/
def thenRunL (c : Cfg w) (outSize : Nat) (ops : List MacOp) : Option (Mac w) → Leak (Option (List Bytes))
  | some m => do
    let l ← m.runL c outSize ops
    pure (some l)
  | none => pure none

/-- `new_with_salt_and_personal` followed by a sequence of calls. -/
def macL (c : Cfg w) (outSize : Nat) (key : Option Bytes) (salt persona : Bytes) (ops : List MacOp) : Leak (Option (List Bytes)) :=
  newWithSaltAndPersonalL c outSize key salt persona >>= thenRunL c outSize ops

/-- `new_from_slice` followed by a sequence of calls. -/
def macSliceL (c : Cfg w) (outSize : Nat) (key : Bytes) (ops : List MacOp) : Leak (Option (List Bytes)) :=
  newFromSliceL c outSize key >>= thenRunL c outSize ops

end Hashes.Blake2
