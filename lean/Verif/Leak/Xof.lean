import Verif.Leak.Run
import Verif.Checked.Xof
import Verif.Checked.K12
/-
Extendable-output functions with what an observer of the memory accesses and branches sees: the readers of Checked/Xof.lean,
TurboSHAKE and cSHAKE (Checked/Keccak.lean, Checked/Hashers.lean), and KangarooTwelve (Checked/K12.lean), with the operations of
Base/Leak.lean in place of those of Base/Rust.lean.  The permutation is a parameter that shows nothing.
-/
namespace Hashes.Leak

/-- `XofReaderCore` with panics and observations. -/
structure XofL (ρ : Type) where
  bs : Nat
  readBlock : ρ → Leak (Bytes × ρ)

namespace XofL
variable {ρ : Type} (x : XofL ρ)

/-- `XofReaderCoreWrapper::from_core` (external crate digest). -/
def reader (r : ρ) : Reader ρ := ⟨r, List.replicate x.bs 0, x.bs⟩

/-- `for block in blocks { *block = core.read_block() }` -/
def blocksL (r : ρ) : List Bytes → Leak (Bytes × ρ)
  | [] => pure ([], r)
  | b :: bs => do
    let y ← x.readBlock r
    let b ← copy b 0 b.length y.1
    let t ← blocksL y.2 bs
    pure (b ++ t.1, t.2)

/-- The part of `ReadBuffer::read` after the cached bytes (external crate block-buffer). -/
def restL (rd : Reader ρ) (data : Bytes) : Leak (Bytes × Reader ρ) := do
  let o ← x.blocksL rd.core (chunks x.bs data)
  let leftover ← slice data (data.length / x.bs * x.bs) data.length
  branch (leftover.length ≠ 0) (do
    let y ← x.readBlock o.2
    let src ← slice y.1 0 leftover.length
    let tail ← copy leftover 0 leftover.length src
    pure (o.1 ++ tail, ⟨y.2, y.1, leftover.length⟩)) (pure (o.1, { rd with core := o.2, pos := x.bs }))

/-- `XofReader::read(data)`. -/
def readL (rd : Reader ρ) (data : Bytes) : Leak (Bytes × Reader ρ) := do
  let r ← usub x.bs rd.pos
  branch (r ≠ 0) (do
    let cached ← slice rd.buf rd.pos rd.buf.length
    branch (data.length < r) (do
      let src ← slice cached 0 data.length
      let out ← copy data 0 data.length src
      pure (out, { rd with pos := rd.pos + data.length })) (do
      let left ← slice data 0 r
      let right ← slice data r data.length
      let left ← copy left 0 r cached
      let o ← x.restL rd right
      pure (left ++ o.1, o.2))) (x.restL rd data)

/-- One `read` per element of `l`. -/
def readsL (rd : Reader ρ) : List Bytes → Leak (Bytes × Reader ρ)
  | [] => pure ([], rd)
  | d :: l => do
    let a ← x.readL rd d
    let b ← readsL a.2 l
    pure (a.1 ++ b.1, b.2)

end XofL

/-- `new`, one `update` per element of `l`, `finalize_xof`, one `read` per element of `ds`: all that was read. -/
def CoreL.xofL {τ ρ : Type} (c : CoreL τ ρ) (x : XofL ρ) (l ds : List Bytes) : Leak Bytes := do
  let r ← c.runL l
  let o ← x.readsL (x.reader r) ds
  pure o.1

end Hashes.Leak

namespace Hashes
open Leak

namespace Sha3
/-- sha3/src/macros.rs:254-262, :415-423, :619-627: the readers of SHAKE, TurboSHAKE and cSHAKE. -/
def xofL (f : Lanes → Lanes) (rate : Nat) : XofL Lanes := ⟨rate, readBlockL f rate⟩

/-- sha3/src/macros.rs:320-364: TurboSHAKE with domain separation byte `d`. -/
def turboL (f : Lanes → Lanes) (rate : Nat) (d : Byte) : CoreL Turbo Lanes where
  kind := .eager
  bs := rate
  init := do
    check (0x01 ≤ d ∧ d ≤ 0x7F)
    pure ⟨zero, d⟩
  updateBlocks := fun s blks => do
    let st ← blks.foldlM (absorbBlockL f) s.state
    pure { s with state := st }
  finalize := fun s buf => finalizeXofL f rate s.domain s.state buf

/-- `left_encode`, lib.rs:158-163; where the run of zero bytes ends is seen in the index. -/
def leftEncodeL (val : W64) (b : Bytes) : Leak (Bytes × Bytes) := do
  let b ← copy b 1 b.length (beBytes 8 val.toNat)
  let r ← slice b 1 8
  let k ← usub 8 (zeroRun r)
  let b ← upd b (zeroRun r) (BitVec.ofNat 8 k)
  let e ← slice b (zeroRun r) b.length
  pure (e, b)

/-- `(x.len() * 8) as u64`, macros.rs:494, :507. -/
def bitsL (x : Bytes) : Leak W64 := mul (BitVec.ofNat 64 x.length) 8

/-- `buffer.digest_blocks(d, |blocks| for block in blocks { state.absorb_block(block) })` -/
def feedL (f : Lanes → Lanes) (rate : Nat) (a : BlockBuffer × Lanes) (d : Bytes) : Leak (BlockBuffer × Lanes) :=
  digestBlocksL .eager rate a.1 d (fun s blks => blks.foldlM (absorbBlockL f) s) a.2

/-- `new_with_function_name`, macros.rs:475-527. -/
def CShake.newL (f : Lanes → Lanes) (rate : Nat) (name cust : Bytes) : Leak CShake :=
  branch (name.isEmpty ∧ cust.isEmpty) (pure ⟨zero, zero, 0x1f⟩) (do
    let e ← leftEncodeL (BitVec.ofNat 64 rate) (List.replicate 9 0)
    let a ← feedL f rate (BlockBuffer.empty rate, zero) e.1
    let n ← bitsL name
    let e ← leftEncodeL n e.2
    let a ← feedL f rate a e.1
    let a ← feedL f rate a name
    let n ← bitsL cust
    let e ← leftEncodeL n e.2
    let a ← feedL f rate a e.1
    let a ← feedL f rate a cust
    let s ← absorbBlockL f a.2 (a.1.padWithZeros rate).1
    pure ⟨s, s, 0x04⟩)

/-- sha3/src/macros.rs:475-566: cSHAKE with function name and customization. -/
def cshakeL (f : Lanes → Lanes) (rate : Nat) (name cust : Bytes) : CoreL CShake Lanes where
  kind := .eager
  bs := rate
  init := CShake.newL f rate name cust
  updateBlocks := fun s blks => do
    let st ← blks.foldlM (absorbBlockL f) s.state
    pure { s with state := st }
  finalize := fun s buf => finalizeXofL f rate s.padding s.state buf
end Sha3

/-- ascon-hash/src/lib.rs:109-113, :213-217. -/
def Ascon.readerL (P : Ascon.State → Ascon.State) : XofL Ascon.State := ⟨8, fun s => pure (leBytes 8 s.x0.toNat, P s)⟩

namespace K12
open Sha3

/-- `TurboShake128::from_core(<TurboShake128Core>::new(d))`, k12/src/lib.rs:52-53, :135 -/
def tnewL (d : Byte) : Leak (Hasher Turbo) := do
  let s ← (turboL f12 168 d).init
  pure ⟨s, .empty 168⟩

/-- `update` of a TurboSHAKE128 hasher. -/
def tupdateL (h : Hasher Turbo) (data : Bytes) : Leak (Hasher Turbo) := do
  let x ← (turboL f12 168 h.core.domain).updateL (h.buf, h.core) data
  pure ⟨x.2, x.1⟩

/-- `finalize_xof_reset` of a TurboSHAKE128 hasher: the reader and the hasher afterwards. -/
def treaderL (h : Hasher Turbo) : Leak (Reader Lanes × Hasher Turbo) := do
  let s ← (turboL f12 168 h.core.domain).finalize h.core h.buf
  let t ← (turboL f12 168 h.core.domain).init
  pure ((Sha3.xofL f12 168).reader s, ⟨t, h.buf.reset⟩)

/-- `new`, k12/src/lib.rs:47-56 -/
def newL (customization : Bytes) : Leak State := do
  let final ← tnewL 0x06
  let chain ← tnewL 0x0B
  pure ⟨customization, List.replicate CHUNK_SIZE 0, 0, final, chain, 0⟩

/-- The `while` loop of `length_encode`, k12/src/lib.rs:232-236. -/
def lengthLoopL : Nat → Bytes → Nat → Nat → Leak (Bytes × Nat)
  | 0, _, _, _ => panic
  | fuel + 1, buffer, bufpos, length =>
    branch (length > 0) (do
      let buffer ← upd buffer bufpos (BitVec.ofNat 8 (length % 256))
      lengthLoopL fuel buffer (bufpos + 1) (length / 256)) (pure (buffer, bufpos))

/-- `length_encode`, k12/src/lib.rs:230-243. -/
def lengthEncodeL (length : Nat) (buffer : Bytes) : Leak (Bytes × Bytes) := do
  let r ← lengthLoopL 256 buffer 0 length
  let part ← slice r.1 0 r.2
  let buffer ← copy r.1 0 r.2 part.reverse
  let buffer ← upd buffer r.2 (BitVec.ofNat 8 r.2)
  let e ← slice buffer 0 (r.2 + 1)
  pure (buffer, e)

/-- k12/src/lib.rs:73-76 -/
def markerL (s : State) : Leak (Hasher Turbo) :=
  branch (s.chainLength = 1) (tupdateL s.finalT [0x03, 0, 0, 0, 0, 0, 0, 0]) (pure s.finalT)

/-- `process_chaining_chunk`, k12/src/lib.rs:71-82 -/
def processChainingChunkL (s : State) : Leak State := do
  check (s.bufpos ≠ 0)
  let final ← markerL s
  let chunk ← slice s.buffer 0 s.bufpos
  let chain ← tupdateL s.chainT chunk
  let r ← treaderL chain
  let v ← (Sha3.xofL f12 168).readL r.1 (List.replicate CHAINING_VALUE_SIZE (0 : Byte))
  let final ← tupdateL final v.1
  pure { s with finalT := final, chainT := r.2 }

/-- k12/src/lib.rs:60-64 -/
def chunkL (s : State) : Leak State :=
  branch (s.chainLength = 0) (do
    let final ← tupdateL s.finalT s.buffer
    pure { s with finalT := final }) (processChainingChunkL s)

/-- `process_chunk`, k12/src/lib.rs:58-69 -/
def processChunkL (s : State) : Leak State := do
  check (s.bufpos = CHUNK_SIZE)
  let s ← chunkL s
  check (s.chainLength + 1 < 2 ^ 64)
  pure { s with chainLength := s.chainLength + 1, buffer := List.replicate CHUNK_SIZE 0, bufpos := 0 }

/-- `if condition { self.process_chunk() }` -/
def flushL (p : Prop) [Decidable p] (s : State) : Leak State := branch p (processChunkL s) (pure s)

/-- k12/src/lib.rs:103-104 and :128-130 -/
def appendL (s : State) (n : Nat) (data : Bytes) : Leak State := do
  let b ← copy s.buffer s.bufpos (s.bufpos + n) data
  pure { s with buffer := b, bufpos := s.bufpos + n }

/-- Body of the loop in `update_blocks`, k12/src/lib.rs:98-105 -/
def updateBlockL (s : State) (block : Bytes) : Leak State := do
  let s ← flushL (s.bufpos = CHUNK_SIZE) s
  appendL s 128 block

/-- `update_blocks`, k12/src/lib.rs:97-106 -/
def updateBlocksL (s : State) (blks : List Bytes) : Leak State := blks.foldlM updateBlockL s

/-- `buffer.digest_blocks(input, |block| self.update_blocks(block))`, k12/src/lib.rs:117 and :118-121 -/
def digestL (s : State) (buffer : BlockBuffer) (input : Bytes) : Leak (BlockBuffer × State) := digestBlocksL .eager 128 buffer input updateBlocksL s

/-- k12/src/lib.rs:132-151 -/
def tailL (s : State) (lenbuf : Bytes) : Leak (Reader Lanes) :=
  branch (s.chainLength = 0) (do
    let tshk ← tnewL 0x07
    let part ← slice s.buffer 0 s.bufpos
    let tshk ← tupdateL tshk part
    let r ← treaderL tshk
    pure r.1) (do
    let s ← processChainingChunkL s
    let e ← lengthEncodeL s.chainLength lenbuf
    let final ← tupdateL s.finalT e.2
    let final ← tupdateL final [0xff, 0xff]
    let r ← treaderL final
    pure r.1)

/-- `finalize_xof_core`, k12/src/lib.rs:113-152; `buffer.get_data()` shows the position. -/
def finalizeL (s : State) (buffer : BlockBuffer) : Leak (Reader Lanes) := do
  let a ← digestL s buffer s.customization
  let e ← lengthEncodeL a.2.customization.length (List.replicate 255 (0 : Byte))
  let a ← digestL a.2 a.1 e.2
  let s ← flushL (a.2.bufpos = CHUNK_SIZE ∧ a.1.pos ≠ 0) a.2
  let s ← appendL s a.1.pos a.1.content
  tailL s e.1

/-- k12/src/lib.rs:47-56, 95-152 -/
def k12L (cust : Bytes) : CoreL State (Reader Sha3.Lanes) where
  kind := .eager
  bs := 128
  init := newL cust
  updateBlocks := updateBlocksL
  finalize := finalizeL

/-- `KangarooTwelveReaderCore::read_block`, k12/src/lib.rs:217-224. -/
def xofL : XofL (Reader Sha3.Lanes) := ⟨168, fun r => (Sha3.xofL Sha3.f12 168).readL r (List.replicate 168 0)⟩

end K12
end Hashes
