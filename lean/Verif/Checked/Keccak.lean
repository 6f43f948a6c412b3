import Verif.Checked.Run
import Verif.Model.Keccak
/- The crate sha3 with Rust's run-time checks and debug assertions: /repo/sha3/src/{state,macros,lib}.rs. `none` is a panic; the
permutation (crate keccak) is the parameter `f`. -/
namespace Hashes.Sha3
open Rs

/-- The loop of `absorb_block`, state.rs:21-23; `zip` stops at the shorter side. -/
def xorLanesC : List Bytes → Lanes → Option Lanes
  | b :: bs, s :: ss => do
    let y ← fromLe 64 b
    let r ← xorLanesC bs ss
    pure ((s ^^^ y) :: r)
  | _, ss => some ss

/-- `absorb_block`, state.rs:18-26. -/
def absorbBlockC (f : Lanes → Lanes) (s : Lanes) (block : Bytes) : Option Lanes := do
  check (block.length % 8 = 0)
  let s ← xorLanesC (chunks 8 block) s
  pure (f s)

/-- `out.chunks_mut(8)`: the last chunk may be shorter. -/
def chunksMut8 (out : Bytes) : List Bytes := (List.range ((out.length + 7) / 8)).map fun i => (out.drop (8 * i)).take 8

/-- The loop of `as_bytes`, state.rs:29-31; chunks beyond the state keep their content. -/
def asBytesLoopC : List Bytes → Lanes → Option (List Bytes)
  | o :: os, s :: ss => do
    let y ← slice (leBytes 8 s.toNat) 0 o.length
    let o ← copy o 0 o.length y
    let r ← asBytesLoopC os ss
    pure (o :: r)
  | os, _ => some os

/-- `as_bytes`, state.rs:28-32. -/
def asBytesC (s : Lanes) (out : Bytes) : Option Bytes := do
  let l ← asBytesLoopC (chunksMut8 out) s
  pure l.flatten

/-- `block[pos] = pad; block[n - 1] |= 0x80`, macros.rs:45-49, 184-188, 353-357, 554-558. -/
def lastBlockC (bs : Nat) (buffer : BlockBuffer) (pad : Byte) : Option Bytes := do
  let pos := buffer.pos
  let block := (buffer.padWithZeros bs).1
  let block ← upd block pos pad
  let n := block.length
  let i ← usub n 1
  let y ← idx block i
  upd block i (y ||| 0x80)

/-- `finalize_fixed_core`, macros.rs:44-55. -/
def finalizeC (f : Lanes → Lanes) (rate : Nat) (pad : Byte) (s : Lanes) (buffer : BlockBuffer) (out : Bytes) : Option Bytes := do
  let block ← lastBlockC rate buffer pad
  let s ← absorbBlockC f s block
  asBytesC s out

/-- `finalize_xof_core`, macros.rs:183-193, :352-362, :553-563. -/
def finalizeXofC (f : Lanes → Lanes) (rate : Nat) (pad : Byte) (s : Lanes) (buffer : BlockBuffer) : Option Lanes := do
  let block ← lastBlockC rate buffer pad
  absorbBlockC f s block

/-- `read_block`, macros.rs:256-261, :417-422, :621-626. -/
def readBlockC (f : Lanes → Lanes) (rate : Nat) (s : Lanes) : Option (Bytes × Lanes) := do
  let block ← asBytesC s (List.replicate rate 0)
  pure (block, f s)

/-- `left_encode`, lib.rs:158-163. -/
def leftEncodeC (val : W64) (b : Bytes) : Option (Bytes × Bytes) := do
  let b ← copy b 1 b.length (beBytes 8 val.toNat)
  let r ← slice b 1 8
  let i := zeroRun r
  let k ← usub 8 i
  let b ← upd b i (BitVec.ofNat 8 k)
  let r ← slice b i b.length
  pure (r, b)

/-- `(x.len() * 8) as u64` on a target with 64-bit `usize`, macros.rs:494, :507. -/
def bitsC (x : Bytes) : Option W64 := mul (BitVec.ofNat 64 x.length) 8

/-- `buffer.digest_blocks(d, |blocks| for block in blocks { state.absorb_block(block) })`: the run of the buffer and whether no
block panicked. -/
def feedC (f : Lanes → Lanes) (rate : Nat) (a : BlockBuffer × Lanes) (d : Bytes) : Option (BlockBuffer × Lanes) :=
  let r := a.1.digestBlocks .eager rate d (fun s blks => s.bind fun s => blks.foldlM (absorbBlockC f) s) (some a.2)
  r.2.map fun s => (r.1, s)

/-- `new_with_function_name`, macros.rs:475-527. -/
def CShake.newC (f : Lanes → Lanes) (rate : Nat) (name cust : Bytes) : Option CShake :=
  if name.isEmpty ∧ cust.isEmpty then some ⟨zero, zero, 0x1f⟩
  else do
    let a := (BlockBuffer.empty rate, zero)
    let e ← leftEncodeC (BitVec.ofNat 64 rate) (List.replicate 9 0)
    let a ← feedC f rate a e.1
    let n ← bitsC name
    let e ← leftEncodeC n e.2
    let a ← feedC f rate a e.1
    let a ← feedC f rate a name
    let n ← bitsC cust
    let e ← leftEncodeC n e.2
    let a ← feedC f rate a e.1
    let a ← feedC f rate a cust
    let s ← absorbBlockC f a.2 (a.1.padWithZeros rate).1
    pure ⟨s, s, 0x04⟩

/-- sha3/src/macros.rs:320-364: TurboSHAKE with domain separation byte `d`; the constructor asserts its range. -/
def turboC (f : Lanes → Lanes) (rate : Nat) (d : Byte) : CoreC Turbo Lanes where
  kind := .eager
  bs := rate
  init := do
    check (0x01 ≤ d ∧ d ≤ 0x7F)
    pure ⟨zero, d⟩
  updateBlocks := fun s blks => do
    let st ← blks.foldlM (absorbBlockC f) s.state
    pure { s with state := st }
  finalize := fun s buf => finalizeXofC f rate s.domain s.state buf

end Hashes.Sha3
