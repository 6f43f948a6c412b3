import Verif.Checked.Run
import Verif.Checked.Xof
import Verif.Model.K12
/- KangarooTwelve statement by statement, with Rust's run-time checks and debug assertions: /repo/k12/src/lib.rs. `usize` is taken as
64 bits wide (Model/Width.lean treats 32 bits). -/
namespace Hashes.K12
open Rs Sha3

/-! #### The TurboSHAKE128 hashers inside, as in the sha3 crate with its checks -/

/-- `TurboShake128::from_core(<TurboShake128Core>::new(d))`, lib.rs:52-53, :135; `new` asserts the range of `d`. -/
def tnewC (d : Byte) : Option (Hasher Turbo) := do pure ⟨← (turboC f12 168 d).init, .empty 168⟩

/-- `update` of a TurboSHAKE128 hasher. -/
def tupdateC (h : Hasher Turbo) (data : Bytes) : Option (Hasher Turbo) := do
  let x ← (turboC f12 168 h.core.domain).updateC (h.core, h.buf) data
  pure ⟨x.1, x.2⟩

/-- `finalize_xof_reset` of a TurboSHAKE128 hasher: the reader and the hasher afterwards. -/
def treaderC (h : Hasher Turbo) : Option (Reader Lanes × Hasher Turbo) := do
  let s ← (turboC f12 168 h.core.domain).finalize h.core h.buf
  let x ← (turboC f12 168 h.core.domain).resetC (h.core, h.buf)
  pure ((Sha3.xofC f12 168).reader s, ⟨x.1, x.2⟩)

/-- `new`, lib.rs:47-56 -/
def newC (customization : Bytes) : Option State := do
  let final ← tnewC 0x06
  let chain ← tnewC 0x0B
  pure ⟨customization, List.replicate CHUNK_SIZE 0, 0, final, chain, 0⟩

/-! #### The hasher -/

/-- The `while` loop of `length_encode`, lib.rs:232-236; `none` also if it did not end after `fuel` iterations. -/
def lengthLoopC : Nat → Bytes → Nat → Nat → Option (Bytes × Nat)
  | 0, _, _, _ => none
  | fuel + 1, buffer, bufpos, length =>
    if length > 0 then do
      let buffer ← upd buffer bufpos (BitVec.ofNat 8 (length % 256))
      lengthLoopC fuel buffer (bufpos + 1) (length / 256)
    else pure (buffer, bufpos)

/-- `length_encode`, lib.rs:230-243: the scratch array afterwards and the returned slice of it. -/
def lengthEncodeC (length : Nat) (buffer : Bytes) : Option (Bytes × Bytes) := do
  let (buffer, bufpos) ← lengthLoopC 256 buffer 0 length
  let buffer ← copy buffer 0 bufpos (← slice buffer 0 bufpos).reverse
  let buffer ← upd buffer bufpos (BitVec.ofNat 8 bufpos)
  pure (buffer, ← slice buffer 0 (bufpos + 1))

/-- lib.rs:73-76 -/
def markerC (s : State) : Option (Hasher Turbo) :=
  if s.chainLength = 1 then tupdateC s.finalT [0x03, 0, 0, 0, 0, 0, 0, 0] else pure s.finalT

/-- `process_chaining_chunk`, lib.rs:71-82 -/
def processChainingChunkC (s : State) : Option State := do
  check (s.bufpos ≠ 0)
  let final ← markerC s
  let result := List.replicate CHAINING_VALUE_SIZE (0 : Byte)
  let chain ← tupdateC s.chainT (← slice s.buffer 0 s.bufpos)
  let (reader, chain) ← treaderC chain
  let (result, _) ← (Sha3.xofC f12 168).readC reader result
  let final ← tupdateC final result
  pure { s with finalT := final, chainT := chain }

/-- lib.rs:60-64 -/
def chunkC (s : State) : Option State :=
  if s.chainLength = 0 then do pure { s with finalT := ← tupdateC s.finalT s.buffer } else processChainingChunkC s

/-- `process_chunk`, lib.rs:58-69 -/
def processChunkC (s : State) : Option State := do
  check (s.bufpos = CHUNK_SIZE)
  let s ← chunkC s
  check (s.chainLength + 1 < 2 ^ 64)
  pure { s with chainLength := s.chainLength + 1, buffer := List.replicate CHUNK_SIZE 0, bufpos := 0 }

/-- `if condition { self.process_chunk() }` -/
def flushC (p : Prop) [Decidable p] (s : State) : Option State := if p then processChunkC s else pure s

/-- `self.buffer[self.bufpos..self.bufpos + n].copy_from_slice(data); self.bufpos += n`, lib.rs:103-104 and :128-130 -/
def appendC (s : State) (n : Nat) (data : Bytes) : Option State := do
  pure { s with buffer := ← copy s.buffer s.bufpos (s.bufpos + n) data, bufpos := s.bufpos + n }

/-- Body of the loop in `update_blocks`, lib.rs:98-105 -/
def updateBlockC (s : State) (block : Bytes) : Option State := do
  let s ← flushC (s.bufpos = CHUNK_SIZE) s
  appendC s 128 block

/-- `update_blocks`, lib.rs:97-106 -/
def updateBlocksC (s : State) (blks : List Bytes) : Option State := blks.foldlM updateBlockC s

/-- `buffer.digest_blocks(input, |block| self.update_blocks(block))`, lib.rs:117 and :118-121 -/
def digestC (s : State) (buffer : BlockBuffer) (input : Bytes) : BlockBuffer × Option State :=
  buffer.digestBlocks .eager 128 input (fun s blks => s.bind fun s => updateBlocksC s blks) (some s)

/-- lib.rs:132-151 -/
def tailC (s : State) (lenbuf : Bytes) : Option (Reader Lanes) :=
  if s.chainLength = 0 then do
    let tshk ← tnewC 0x07
    let tshk ← tupdateC tshk (← slice s.buffer 0 s.bufpos)
    pure (← treaderC tshk).1
  else do
    let s ← processChainingChunkC s
    let (_, enc) ← lengthEncodeC s.chainLength lenbuf
    let final ← tupdateC s.finalT enc
    let final ← tupdateC final [0xff, 0xff]
    pure (← treaderC final).1

/-- `finalize_xof_core`, lib.rs:113-152 -/
def finalizeC (s : State) (buffer : BlockBuffer) : Option (Reader Lanes) := do
  let lenbuf := List.replicate 255 (0 : Byte)
  let a := digestC s buffer s.customization
  let s ← a.2
  let (lenbuf, enc) ← lengthEncodeC s.customization.length lenbuf
  let a := digestC s a.1 enc
  let s ← a.2
  let buffer := a.1
  let s ← flushC (s.bufpos = CHUNK_SIZE ∧ buffer.pos ≠ 0) s
  let s ← appendC s buffer.pos buffer.content
  tailC s lenbuf

end Hashes.K12
