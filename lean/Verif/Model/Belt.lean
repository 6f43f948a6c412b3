import Verif.Base.Vec
import Verif.Model.CoreWrapper
/-
Model of BelT hash: /repo/belt-hash/src/lib.rs. The block cipher `belt_block::belt_block_raw` is external and is the
parameter `E block key` of every definition.
-/
namespace Hashes.Belt

/-- `H0`, lib.rs:31-33 -/
def H0 : V8 W32 :=
  ⟨0xC8BA94B1, 0x3BF5080A, 0x8E006D36, 0xE45D4A58, 0x9DFA0485, 0xACC7B61B, 0xC2722E25, 0x0DCEFD02⟩

/-- `BeltHashCore`, lib.rs:36-41 -/
structure State where
  r : W128
  s : V4 W32
  h : V8 W32
deriving DecidableEq

/-- `belt_block_raw(block, key)`: external. -/
abbrev Cipher := V4 W32 → V8 W32 → V4 W32

/-- `xor`, lib.rs:176-178 -/
def xor (a b : V4 W32) : V4 W32 := ⟨a.x0 ^^^ b.x0, a.x1 ^^^ b.x1, a.x2 ^^^ b.x2, a.x3 ^^^ b.x3⟩

/-- `concat`, lib.rs:181-183 -/
def concat (a b : V4 W32) : V8 W32 := ⟨a.x0, a.x1, a.x2, a.x3, b.x0, b.x1, b.x2, b.x3⟩

/-- `belt_compress`, lib.rs:158-173 -/
def beltCompress (E : Cipher) (x1 x2 : V4 W32) (x34 : V8 W32) : V4 W32 × V8 W32 :=
  let x3 : V4 W32 := ⟨x34.x0, x34.x1, x34.x2, x34.x3⟩
  let x4 : V4 W32 := ⟨x34.x4, x34.x5, x34.x6, x34.x7⟩
  let t1 := E (xor x3 x4) (concat x1 x2)
  let s := xor (xor t1 x3) x4
  let t2 := E x1 (concat s x4)
  let y1 := xor t2 x1
  let t3 := E x2 (concat (s.map fun v => ~~~v) x3)
  let y2 := xor t3 x2
  (s, concat y1 y2)

/-- `get_u32`, lib.rs:186-188 -/
def getU32 (block : Bytes) (i : Nat) : W32 := wordLE 32 block i

/-- `compress_block`, lib.rs:47-63 -/
def compressBlock (E : Cipher) (st : State) (block : Bytes) : State :=
  let x1 : V4 W32 := ⟨getU32 block 0, getU32 block 1, getU32 block 2, getU32 block 3⟩
  let x2 : V4 W32 := ⟨getU32 block 4, getU32 block 5, getU32 block 6, getU32 block 7⟩
  let th := beltCompress E x1 x2 st.h
  ⟨st.r, xor st.s th.1, th.2⟩

/-- `update_blocks`, lib.rs:82-87 -/
def updateBlocks (E : Cipher) (st : State) (blks : List Bytes) : State :=
  blks.foldl (compressBlock E) ⟨st.r + BitVec.ofNat 128 blks.length, st.s, st.h⟩

/-- `encode_r`, lib.rs:191-198; `U32_MASK` is `2^32 - 1`, lib.rs:30 -/
def encodeR (r : W128) : V4 W32 :=
  let mask : W128 := (1#128 <<< 32) - 1#128
  ⟨(r &&& mask).truncate 32, ((r >>> 32) &&& mask).truncate 32, ((r >>> 64) &&& mask).truncate 32,
    ((r >>> 96) &&& mask).truncate 32⟩

/-- `finalize_fixed_core`, lib.rs:92-104 (release-profile wrapping product, see DESIGN.md §2) -/
def finalize (E : Cipher) (st : State) (buffer : BlockBuffer) : Bytes :=
  let pos := buffer.pos
  let st := if pos ≠ 0 then compressBlock E st (buffer.padWithZeros 32).1 else st
  let r := encodeR (8 * ((32 * st.r) + BitVec.ofNat 128 pos))
  let y := (beltCompress E r st.s st.h).2
  bytesOfWordsLE y.toList

/-- `Default`, lib.rs:107-116 -/
def init : State := ⟨0, ⟨0, 0, 0, 0⟩, H0⟩

/-- `BeltHash`, lib.rs:44: `Eager` :73, block size :69, output size :77; no `SerializableState`. -/
def belt (E : Cipher) : Core State Bytes where
  kind := .eager
  bs := 32
  init := init
  updateBlocks := updateBlocks E
  finalize := finalize E
  reset := fun _ => init
  serialize := fun _ => []
  deserialize := fun _ => none
  serLen := 0

end Hashes.Belt
