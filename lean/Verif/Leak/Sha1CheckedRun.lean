import Verif.Leak.Run
import Verif.Leak.Sha1Checked
/-
The whole collision-detecting SHA-1 with what an observer of the memory accesses and branches sees: `finalize` of Checked/Sha1Checked.lean and
the hasher of Checked/Hashers.lean with the operations of Base/Leak.lean.  Whether collision detection is on is a branch.
-/
namespace Hashes.Sha1Checked
open Leak

/-- The two cases of `finalize`, compress.rs:764-773. -/
def padL (x : V5 W32 × Detection) (buffer : Bytes) (last left : Nat) : Leak ((V5 W32 × Detection) × Bytes) :=
  branch (56 ≤ last) (do
    let padn ← usub 120 last
    let p ← slice SHA1_PADDING 0 padn
    let pad0 ← slice p 0 left
    let pad1 ← slice p left p.length
    let buffer ← copy buffer last buffer.length pad0
    let x ← compressL x [buffer]
    let buffer ← copy buffer 0 pad1.length pad1
    pure (x, buffer))
  (do
    let padn ← usub 56 last
    let p ← slice SHA1_PADDING 0 padn
    let buffer ← copy buffer last 56 p
    pure (x, buffer))

/-- `buffer[56 + i] = (total >> (56 - 8 i)) as u8`, compress.rs:777-784. -/
def putLenL (buffer : Bytes) (total : W64) : Leak Bytes := do
  let y ← shr total 56
  let buffer ← upd buffer 56 (y.setWidth 8)
  let y ← shr total 48
  let buffer ← upd buffer 57 (y.setWidth 8)
  let y ← shr total 40
  let buffer ← upd buffer 58 (y.setWidth 8)
  let y ← shr total 32
  let buffer ← upd buffer 59 (y.setWidth 8)
  let y ← shr total 24
  let buffer ← upd buffer 60 (y.setWidth 8)
  let y ← shr total 16
  let buffer ← upd buffer 61 (y.setWidth 8)
  let y ← shr total 8
  let buffer ← upd buffer 62 (y.setWidth 8)
  upd buffer 63 (total.setWidth 8)

/-- `finalize`, compress.rs:750-787. -/
def finalizeL (x : V5 W32 × Detection) (total : W64) (lastBlock : Bytes) : Leak (V5 W32 × Detection) := do
  let total ← add total (BitVec.ofNat 64 lastBlock.length)
  let last := lastBlock.length
  let buffer ← copy (List.replicate 64 0) 0 last lastBlock
  let left ← usub 64 last
  let r ← padL x buffer last left
  let total ← shl total 3
  let buffer ← putLenL r.2 total
  compressL r.1 [buffer]

/-- The output loop of `finalize_inner`, lib.rs:121-123, and the result, lib.rs:97-105. -/
def resultL (h : V5 W32) (ctx : Option Detection) : Leak Result := do
  let out ← outBEL 20 h.toList
  match ctx with
  | some ctx => do
    let _ ← emit (.branch true) (some ())
    branch (ctx.foundCollision = true) (branch (ctx.safeHash = true) (pure (.mitigated out)) (pure (.collision out))) (pure (.ok out))
  | none => do
    let _ ← emit (.branch false) (some ())
    pure (.ok out)

/-- sha1-checked/src/lib.rs:93-124, :175-199; the portable SHA-1 has literal indices only and shows nothing. -/
def sha1CheckedL (x : Builder) : CoreL State Result where
  kind := .eager
  bs := 64
  init := pure x.build
  updateBlocks := fun s blks => do
    let n ← seen (Count.bump 64 s.blockLen blks.length)
    match s.detection with
    | some ctx => do
      let _ ← emit (.branch true) (some ())
      let r ← compressL (s.h, ctx) blks
      pure ⟨r.1, n, some r.2⟩
    | none => do
      let _ ← emit (.branch false) (some ())
      pure ⟨Sha1.compressSoft s.h blks, n, none⟩
  finalize := fun s buf =>
    match s.detection with
    | some ctx => do
      let _ ← emit (.branch true) (some ())
      let total ← seen (Count.mul 64 64 s.blockLen.toNat)
      let r ← finalizeL (s.h, ctx) (BitVec.ofNat 64 total) buf.content
      resultL r.1 (some r.2)
    | none => do
      let _ ← emit (.branch false) (some ())
      let bits ← seen (Count.bitLen 64 64 s.blockLen.toNat buf.pos)
      let h ← digestPadL 64 buf 0x80 (beBytes 8 (BitVec.ofNat 64 bits).toNat) (fun st b => pure (Sha1.compressSoft st [b])) s.h
      resultL h none

end Hashes.Sha1Checked
