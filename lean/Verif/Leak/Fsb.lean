import Verif.Base.Leak
import Verif.Model.Fsb
/- FSB with what an observer of the memory accesses and branches sees (Base/Leak.lean): the functions of Verif/Model/Fsb.lean, which say
what is modelled, with the operations below in place of those. -/
namespace Hashes.Fsb
open Leak (emit seen branch)

/-! The checked operations of Model/Fsb.lean together with what they show; amounts of shifts are not seen, whether they are in range is. -/
def csubL (a b : Nat) : Leak Nat := seen (csub a b)
def cadd32L (a b : Nat) : Leak Nat := seen (cadd32 a b)
def shlL (a : Byte) (k : Nat) : Leak Byte := seen (shl a k)
def shrL (a : Byte) (k : Nat) : Leak Byte := seen (shr a k)
def idxL (l : Bytes) (i : Nat) : Leak Byte := emit (.index i) (idx l i)
def sliceL (l : Bytes) (a b : Nat) : Leak Bytes := emit (.range a b) (slice l a b)
def storeL (l : Bytes) (i : Nat) (v : Byte) : Leak Bytes := emit (.index i) (store l i v)
def xorAtL (l : Bytes) (i : Nat) (v : Byte) : Leak Bytes := emit (.index i) (xorAt l i v)
def loopL (lo hi : Nat) (body : Nat → Bytes → Leak Bytes) (t : Bytes) : Leak Bytes :=
  (List.range' lo (hi - lo)).foldlM (fun t i => body i t) t

variable (P : Params)

/-- `define_iv`, macros.rs:132-146 -/
def defineIvL (PI : Bytes) (index : Nat) : Leak Bytes := do
  let v ← sliceL PI (index * P.sizeVectors) ((index + 1) * P.sizeVectors)
  let last ← csubL v.length 1
  let x ← idxL v last
  let x ← shrL x P.shift
  let x ← shlL x P.shift
  storeL v last x

/-- `dividing_bits`, macros.rs:181-196: group `i` of `size` bits (`i < w - 1`). -/
def divideOneL (m : Bytes) (size i : Nat) : Leak Byte := do
  let shifting ← csubL 8 size
  let position := i * size
  let initialByte := position / 8
  let initialBit := position % 8
  let switch := (initialBit + size - 1) / 8
  branch (switch = 1) (do
    let a ← idxL m initialByte
    let a ← shlL a initialBit
    let b ← idxL m (initialByte + 1)
    let b ← shrL b (8 - initialBit)
    shrL (a ||| b) shifting)
    (do
      let a ← idxL m initialByte
      let a ← shlL a initialBit
      shrL a shifting)

/-- `dividing_bits`, macros.rs:172-201 -/
def dividingBitsL (m : Bytes) (size : Nat) : Leak Bytes := do
  branch (size ≠ 5 ∧ size ≠ 6) Leak.panic (pure ())
  let init ← (List.range (P.w - 1)).mapM (divideOneL m size)
  let shifting := 8 - size
  let x ← idxL m (P.sizeMsg - 1)
  let x ← shlL x shifting
  let x ← shrL x shifting
  pure (init ++ [x])

/-- `computing_w_indices`, macros.rs:152-167 -/
def wIndicesL (h m : Bytes) : Leak (List Nat) := do
  let d ← dividingBitsL P m ((P.s - P.r) / P.w)
  (List.range P.w).mapM fun i => do
    let mi ← idxL d i
    let a := (i * P.n / P.w) % 2 ^ 32
    let iv ← idxL h i
    let b ← cadd32L a iv.toNat
    cadd32L b ((mi.toNat <<< (P.r / P.w)) % 2 ^ 32)

/-- `shift_and_truncate`, macros.rs:234-242 -/
def shiftSmallL (array : Bytes) (sv : Nat) : Leak Bytes := do
  let R := P.sizeOutput
  let cue := P.p % 8
  let truncated : Bytes := List.replicate R 0
  let start ← csubL array.length 1
  let a ← idxL array start
  let k ← csubL cue (sv % 256)
  let v ← shlL a k
  let truncated ← storeL truncated 0 v
  let a ← idxL array 0
  let v ← shrL a sv
  let truncated ← xorAtL truncated 0 v
  loopL 1 R (fun position t => do
    let a ← idxL array (position - 1)
    let k ← csubL 8 sv
    let v ← shlL a k
    let t ← xorAtL t position v
    let a ← idxL array position
    let v ← shrL a sv
    xorAtL t position v) truncated

/-- `shift_and_truncate`, macros.rs:256-303: the bits in the last byte do not line up. -/
def shiftBitsL (array : Bytes) (bytesToShift start remaining : Nat) : Leak Bytes := do
  let R := P.sizeOutput
  let cue := P.p % 8
  let truncated : Bytes := List.replicate R 0
  let truncated ← loopL 0 (bytesToShift - 1) (fun position t => do
    let a ← idxL array (start + position)
    let k ← csubL 8 remaining
    let v ← shlL a k
    let b ← idxL array (start + position + 1)
    let v' ← shrL b remaining
    storeL t position (v ||| v')) truncated
  branch (8 - remaining ≤ cue)
    (let x := cue - (8 - remaining)
    branch (x > 0) (do
      let a ← idxL array (start + bytesToShift - 1)
      let k ← csubL cue x
      let v ← shlL a k
      let truncated ← xorAtL truncated (bytesToShift - 1) v
      let a ← idxL array 0
      let v ← shrL a x
      let truncated ← xorAtL truncated (bytesToShift - 1) v
      loopL bytesToShift R (fun position t => do
        let index := position - bytesToShift
        let a ← idxL array index
        let k ← csubL 8 x
        let v ← shlL a k
        let t ← xorAtL t position v
        let a ← idxL array (index + 1)
        let v ← shrL a x
        xorAtL t position v) truncated)
      (loopL (bytesToShift - 1) R (fun position t => do
        let a ← idxL array (position - (bytesToShift - 1))
        storeL t position a) truncated))
    (do
      let pd ← csubL (8 - remaining) cue
      let a ← idxL array 0
      let k ← csubL 8 pd
      let v ← shrL a k
      let i ← csubL bytesToShift 2
      let truncated ← xorAtL truncated i v
      loopL (bytesToShift - 1) R (fun position t => do
        let index := position - (bytesToShift - 1)
        let a ← idxL array index
        let v ← shlL a pd
        let t ← xorAtL t position v
        let a ← idxL array (index + 1)
        let k ← csubL 8 pd
        let v ← shrL a k
        xorAtL t position v) truncated)

/-- `shift_and_truncate`, macros.rs:305-316: whole bytes. -/
def shiftBytesL (array : Bytes) (bytesToShift start : Nat) : Leak Bytes := do
  let R := P.sizeOutput
  let cue := P.p % 8
  let truncated : Bytes := List.replicate R 0
  let src ← sliceL array start (start + bytesToShift)
  branch (bytesToShift ≤ truncated.length) (do
    let truncated := src ++ truncated.drop bytesToShift
    let a ← idxL array 0
    let v ← shrL a cue
    let truncated ← xorAtL truncated (bytesToShift - 1) v
    loopL bytesToShift R (fun position t => do
      let index := position - bytesToShift
      let a ← idxL array index
      let k ← csubL 8 cue
      let v ← shlL a k
      let t ← xorAtL t position v
      let a ← idxL array (index + 1)
      let v ← shrL a cue
      xorAtL t position v) truncated)
    Leak.panic

/-- `shift_and_truncate`, macros.rs:244-318 -/
def shiftLargeL (array : Bytes) (sv : Nat) : Leak Bytes := do
  let d ← csubL sv (P.p % 8)
  let d1 ← csubL d 1
  let bytesToShift := d1 / 8 + 2
  let start ← csubL array.length bytesToShift
  let remaining := d % 8
  branch (remaining ≠ 0) (shiftBitsL P array bytesToShift start remaining) (shiftBytesL P array bytesToShift start)

/-- `shift_and_truncate`, macros.rs:223-320 -/
def shiftAndTruncateL (array : Bytes) (sv : Nat) : Leak Bytes :=
  branch (sv = 0) (sliceL array 0 P.sizeOutput) (branch (sv ≤ P.p % 8) (shiftSmallL P array sv) (shiftLargeL P array sv))

/-- The body of the loop of `compress`, macros.rs:208-218 -/
def columnL (PI acc : Bytes) (wi : Nat) : Leak Bytes := do
  let vector ← defineIvL P PI (wi / P.r)
  let truncated ← shiftAndTruncateL P vector (wi % P.r)
  pure (List.zipWith (· ^^^ ·) acc truncated)

/-- `compress`, macros.rs:204-221 -/
def compressL (PI : Bytes) (hash m : Bytes) : Leak Bytes := do
  let ws ← wIndicesL P hash m
  ws.foldlM (columnL P PI) (List.replicate P.sizeOutput 0)

end Hashes.Fsb
