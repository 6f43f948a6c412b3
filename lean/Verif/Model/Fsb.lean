import Verif.Model.CoreWrapper
import Verif.Model.Whirlpool
/-
Model of FSB: /repo/fsb/src/lib.rs and macros.rs (`fsb_impl!`). Panics (slice index out of range, subtraction or addition
overflow, over-long shifts) are explicit: every function that can panic returns an `Option`. The table `PI`
(fsb/src/pi.bin, `include_bytes!` at lib.rs:19, 272384 bytes) is a parameter.
-/
namespace Hashes.Fsb

/-- Arguments of `fsb_impl!`, lib.rs:36-118, macros.rs:2-5. -/
structure Params where
  n : Nat
  w : Nat
  r : Nat
  p : Nat
  s : Nat
  bs : Nat
  out : Nat
deriving DecidableEq

/-- lib.rs:36-50, 53-67, 70-84, 87-101, 104-118 -/
def fsb160 : Params := ⟨5 <<< 18, 80, 640, 653, 1120, 60, 20⟩
def fsb224 : Params := ⟨7 <<< 18, 112, 896, 907, 1568, 84, 28⟩
def fsb256 : Params := ⟨1 <<< 21, 128, 1024, 1061, 1792, 96, 32⟩
def fsb384 : Params := ⟨23 <<< 16, 184, 1472, 1483, 2392, 115, 48⟩
def fsb512 : Params := ⟨31 <<< 16, 248, 1984, 1987, 3224, 155, 64⟩

/-! Checked operations. -/
/-- Unsigned subtraction; panics on underflow. -/
def csub (a b : Nat) : Option Nat := if b ≤ a then some (a - b) else none
/-- `u32` addition; panics on overflow. -/
def cadd32 (a b : Nat) : Option Nat := if a + b < 2 ^ 32 then some (a + b) else none
/-- `u8` shifts; panic when the amount is not below 8. -/
def shl (a : Byte) (k : Nat) : Option Byte := if k < 8 then some (a <<< k) else none
def shr (a : Byte) (k : Nat) : Option Byte := if k < 8 then some (a >>> k) else none
/-- `l[i]` -/
def idx (l : Bytes) (i : Nat) : Option Byte := l[i]?
/-- `&l[a..b]` -/
def slice (l : Bytes) (a b : Nat) : Option Bytes := if a ≤ b ∧ b ≤ l.length then some ((l.drop a).take (b - a)) else none
/-- `l[i] = v` -/
def store (l : Bytes) (i : Nat) (v : Byte) : Option Bytes := if i < l.length then some (l.set i v) else none
/-- `l[i] ^= v` -/
def xorAt (l : Bytes) (i : Nat) (v : Byte) : Option Bytes := if i < l.length then some (l.set i (l.getD i 0 ^^^ v)) else none
/-- `for i in lo..hi { body }` -/
def loop (lo hi : Nat) (body : Nat → Bytes → Option Bytes) (t : Bytes) : Option Bytes :=
  (List.range' lo (hi - lo)).foldlM (fun t i => body i t) t

variable (P : Params)

/-- macros.rs:126-130 -/
def Params.sizeOutput : Nat := P.r / 8
def Params.sizeInput : Nat := P.s / 8
def Params.sizeMsg : Nat := P.sizeInput - P.sizeOutput
def Params.sizeVectors : Nat := P.p / 8 + 1
def Params.shift : Nat := 8 - P.p % 8

/-- `define_iv`, macros.rs:132-146 -/
def defineIv (PI : Bytes) (index : Nat) : Option Bytes := do
  let v ← slice PI (index * P.sizeVectors) ((index + 1) * P.sizeVectors)
  let last ← csub v.length 1
  let x ← idx v last
  let x ← shr x P.shift
  let x ← shl x P.shift
  store v last x

/-- `dividing_bits`, macros.rs:181-196: group `i` of `size` bits (`i < w - 1`). -/
def divideOne (m : Bytes) (size i : Nat) : Option Byte := do
  let shifting ← csub 8 size
  let position := i * size
  let initialByte := position / 8
  let initialBit := position % 8
  let switch := (initialBit + size - 1) / 8
  if switch = 1 then do
    let a ← idx m initialByte
    let a ← shl a initialBit
    let b ← idx m (initialByte + 1)
    let b ← shr b (8 - initialBit)
    shr (a ||| b) shifting
  else do
    let a ← idx m initialByte
    let a ← shl a initialBit
    shr a shifting

/-- `dividing_bits`, macros.rs:172-201 -/
def dividingBits (m : Bytes) (size : Nat) : Option Bytes := do
  if size ≠ 5 ∧ size ≠ 6 then none
  let init ← (List.range (P.w - 1)).mapM (divideOne m size)
  let shifting := 8 - size
  let x ← idx m (P.sizeMsg - 1)
  let x ← shl x shifting
  let x ← shr x shifting
  some (init ++ [x])

/-- `computing_w_indices`, macros.rs:152-167 -/
def wIndices (h m : Bytes) : Option (List Nat) := do
  let d ← dividingBits P m ((P.s - P.r) / P.w)
  (List.range P.w).mapM fun i => do
    let mi ← idx d i
    let a := (i * P.n / P.w) % 2 ^ 32
    let iv ← idx h i
    let b ← cadd32 a iv.toNat
    cadd32 b ((mi.toNat <<< (P.r / P.w)) % 2 ^ 32)

/-- `shift_and_truncate`, macros.rs:223-320 -/
def shiftAndTruncate (array : Bytes) (sv : Nat) : Option Bytes :=
  let R := P.sizeOutput
  let cue := P.p % 8
  let truncated : Bytes := List.replicate R 0
  if sv = 0 then
    slice array 0 R
  else if sv ≤ cue then do
    let start ← csub array.length 1
    let a ← idx array start
    let k ← csub cue (sv % 256)
    let v ← shl a k
    let truncated ← store truncated 0 v
    let a ← idx array 0
    let v ← shr a sv
    let truncated ← xorAt truncated 0 v
    loop 1 R (fun position t => do
      let a ← idx array (position - 1)
      let k ← csub 8 sv
      let v ← shl a k
      let t ← xorAt t position v
      let a ← idx array position
      let v ← shr a sv
      xorAt t position v) truncated
  else do
    let d ← csub sv cue
    let d1 ← csub d 1
    let bytesToShift := d1 / 8 + 2
    let start ← csub array.length bytesToShift
    let remaining := d % 8
    if remaining ≠ 0 then do
      let truncated ← loop 0 (bytesToShift - 1) (fun position t => do
        let a ← idx array (start + position)
        let k ← csub 8 remaining
        let v ← shl a k
        let b ← idx array (start + position + 1)
        let v' ← shr b remaining
        store t position (v ||| v')) truncated
      -- `bits_in_cue.checked_sub(8 - remaining_bits)`
      if 8 - remaining ≤ cue then
        let x := cue - (8 - remaining)
        if x > 0 then do
          let a ← idx array (start + bytesToShift - 1)
          let k ← csub cue x
          let v ← shl a k
          let truncated ← xorAt truncated (bytesToShift - 1) v
          let a ← idx array 0
          let v ← shr a x
          let truncated ← xorAt truncated (bytesToShift - 1) v
          loop bytesToShift R (fun position t => do
            let index := position - bytesToShift
            let a ← idx array index
            let k ← csub 8 x
            let v ← shl a k
            let t ← xorAt t position v
            let a ← idx array (index + 1)
            let v ← shr a x
            xorAt t position v) truncated
        else
          loop (bytesToShift - 1) R (fun position t => do
            let a ← idx array (position - (bytesToShift - 1))
            store t position a) truncated
      else do
        let pd ← csub (8 - remaining) cue
        let a ← idx array 0
        let k ← csub 8 pd
        let v ← shr a k
        let i ← csub bytesToShift 2
        let truncated ← xorAt truncated i v
        loop (bytesToShift - 1) R (fun position t => do
          let index := position - (bytesToShift - 1)
          let a ← idx array index
          let v ← shl a pd
          let t ← xorAt t position v
          let a ← idx array (index + 1)
          let k ← csub 8 pd
          let v ← shr a k
          xorAt t position v) truncated
    else do
      -- `truncated[..bytes_to_shift].clone_from_slice(&array[starting_byte..(starting_byte + bytes_to_shift)])`
      let src ← slice array start (start + bytesToShift)
      if bytesToShift ≤ truncated.length then do
        let truncated := src ++ truncated.drop bytesToShift
        let a ← idx array 0
        let v ← shr a cue
        let truncated ← xorAt truncated (bytesToShift - 1) v
        loop bytesToShift R (fun position t => do
          let index := position - bytesToShift
          let a ← idx array index
          let k ← csub 8 cue
          let v ← shl a k
          let t ← xorAt t position v
          let a ← idx array (index + 1)
          let v ← shr a cue
          xorAt t position v) truncated
      else none

/-- `compress`, macros.rs:204-221: returns the new chaining value. -/
def compress (PI : Bytes) (hash m : Bytes) : Option Bytes := do
  let ws ← wIndices P hash m
  ws.foldlM (fun acc wi => do
    let vector ← defineIv P PI (wi / P.r)
    let truncated ← shiftAndTruncate P vector (wi % P.r)
    some (List.zipWith (· ^^^ ·) acc truncated)) (List.replicate P.sizeOutput 0)

/-- `$state`, macros.rs:10-13; the chaining value is `none` after a panic. -/
structure State where
  blocksLen : W64
  state : Option Bytes
deriving DecidableEq

/-- `default`, macros.rs:58-63 -/
def init : State := ⟨0, some (List.replicate (P.r / 8) 0)⟩

/-- `compress`, macros.rs:204-221, after a possible panic -/
def compressOpt (PI : Bytes) (s : Option Bytes) (b : Bytes) : Option Bytes := s.bind fun s => compress P PI s b

/-- `update_blocks`, macros.rs:34-39 -/
def updateBlocks (PI : Bytes) (s : State) (blks : List Bytes) : State :=
  ⟨s.blocksLen + BitVec.ofNat 64 blks.length, blks.foldl (compressOpt P PI) s.state⟩

/-- `finalize_fixed_core`, macros.rs:44-53 (release-profile wrapping `blocks_len * BlockSize`, see DESIGN.md §2) -/
def finalize (PI : Bytes) (s : State) (b : BlockBuffer) : Option Bytes :=
  let blockBytes := BitVec.ofNat 64 P.bs * s.blocksLen
  let bitLen := 8 * (BitVec.ofNat 64 b.pos + blockBytes)
  let h := b.len64PaddingBE P.bs bitLen (compressOpt P PI) s.state
  let c := Whirlpool.whirlpool
  h.map fun h => (c.finish (c.update c.new h)).take P.out

/-- macros.rs:101-109 -/
def serialize (s : State) : Bytes := s.state.getD [] ++ leBytes 8 s.blocksLen.toNat

/-- macros.rs:111-122 -/
def deserialize (raw : Bytes) : Option State :=
  if raw.length = P.r / 8 + 8 then some ⟨BitVec.ofNat 64 (ofLE (raw.drop (P.r / 8))), some (raw.take (P.r / 8))⟩ else none

/-- `Fsb*Core`: `Eager` :29, block size :21, reset :68-70. -/
def core (PI : Bytes) : Core State (Option Bytes) where
  kind := .eager
  bs := P.bs
  init := init P
  updateBlocks := updateBlocks P PI
  finalize := finalize P PI
  reset := fun _ => init P
  serialize := serialize
  deserialize := deserialize P
  serLen := P.r / 8 + 8

end Hashes.Fsb
