import Verif.Base.Rust
import Verif.Model.Counters
import Verif.Model.VarCore
/-
Whole hashers in a build with overflow checks: a core whose operations may panic (`none`), run through the buffering of
Model/CoreWrapper.lean.  Once an operation has panicked the hasher is gone, so the run as a whole has no result.
-/
namespace Hashes.Rs

/-- What an algorithm crate supplies, with panics. -/
structure CoreC (τ ω : Type) where
  kind : BufKind
  bs : Nat
  init : Option τ
  updateBlocks : τ → List Bytes → Option τ
  finalize : τ → BlockBuffer → Option ω

/-- The core as driven by `CoreWrapper`; `Reset` and `SerializableState` are not used here. -/
def CoreC.core {τ ω : Type} (c : CoreC τ ω) : Core (Option τ) (Option ω) where
  kind := c.kind
  bs := c.bs
  init := c.init
  updateBlocks := fun s blks => s.bind fun s => c.updateBlocks s blks
  finalize := fun s buf => s.bind fun s => c.finalize s buf
  reset := fun _ => c.init
  serialize := fun _ => []
  deserialize := fun _ => none
  serLen := 0

/-- `new`, one `update` per element of `l`, `finalize`. -/
def CoreC.run {τ ω : Type} (c : CoreC τ ω) (l : List Bytes) : Option ω := c.core.finish (l.foldl c.core.update c.core.new)

/-- `deserialize` returned a hasher with core `s` and buffer `buf`; then one `update` per element of `l` and `finalize`. -/
def CoreC.resume {τ ω : Type} (c : CoreC τ ω) (s : τ) (buf : BlockBuffer) (l : List Bytes) : Option ω :=
  c.core.finish (l.foldl c.core.update ⟨some s, buf⟩)

/-- `Update::update for CoreWrapper`: `buffer.digest_blocks(input, |blocks| core.update_blocks(blocks))`. -/
def CoreC.updateC {τ ω : Type} (c : CoreC τ ω) (x : τ × BlockBuffer) (input : Bytes) : Option (τ × BlockBuffer) := do
  let r := x.2.digestBlocks c.kind c.bs input c.core.updateBlocks (some x.1)
  let s ← r.2
  pure (s, r.1)

/-- `Reset::reset for CoreWrapper`: the core is set to its initial value and the buffer is emptied.  The crates' cores do
`*self = Default::default()` (e.g. /repo/sha1/src/lib.rs:97-102, /repo/md2/src/lib.rs:119-124), the variable ones go through the digest
crate's wrapper, which does the same. -/
def CoreC.resetC {τ ω : Type} (c : CoreC τ ω) (x : τ × BlockBuffer) : Option (τ × BlockBuffer) := do
  let s ← c.init
  pure (s, x.2.reset)

/-- `BlockBuffer::<_, Eager>::digest_pad(delim, suffix, compress)` (external crate block-buffer, see Model/BlockBuffer.lean)
with its checks and a closure that may panic. -/
def digestPadC {τ : Type} (bs : Nat) (b : BlockBuffer) (delim : Byte) (suffix : Bytes) (compress : τ → Bytes → Option τ) (s : τ) :
    Option τ := do
  check (suffix.length ≤ bs)
  let buf ← upd (b.padWithZeros bs).1 b.pos delim
  let n ← usub bs suffix.length
  let rem ← usub (← usub bs b.pos) 1
  if rem < suffix.length then
    let s ← compress s buf
    let buf ← copy (List.replicate bs (0 : Byte)) n bs suffix
    compress s buf
  else
    let buf ← copy buf n bs suffix
    compress s buf

/-- The last statements of `CtVariableCoreWrapper::finalize_fixed_core` (external crate digest): `n` bytes of the full output
are copied to the output array. -/
def truncateC (side : TruncSide) (n : Nat) (full : Bytes) : Option Bytes := do
  let m ← usub full.length n
  let src ← match side with
    | .left => slice full 0 n
    | .right => slice full m full.length
  copy (List.replicate n (0 : Byte)) 0 n src

/-- Hashers that keep a chaining value and a counter of blocks: `update_blocks` adds to the counter and compresses,
finalization computes the length value and goes on from there. -/
def countedC {w : Nat} {τ ω : Type} (k : Count.Book w) (h0 : Option τ) (comp : τ → List Bytes → Option τ)
    (out : τ → Nat → BlockBuffer → Option ω) : CoreC (τ × BitVec w) ω where
  kind := k.kind
  bs := k.bs
  init := h0.map fun h => (h, 0)
  updateBlocks := fun s blks => do
    let n ← k.upd s.2 blks.length
    let h ← comp s.1 blks
    pure (h, n)
  finalize := fun s buf => do
    let v ← k.fin s.2.toNat buf.pos
    out s.1 v buf

/-- Hashers without such a counter: `update_blocks` is a loop over the blocks. -/
def plainC {τ ω : Type} (kind : BufKind) (bs : Nat) (init : Option τ) (comp : τ → Bytes → Option τ)
    (out : τ → BlockBuffer → Option ω) : CoreC τ ω where
  kind := kind
  bs := bs
  init := init
  updateBlocks := fun s blks => blks.foldlM comp s
  finalize := out

end Hashes.Rs
