import Verif.Base.Rust
import Verif.Model.Belt
/- BelT hash statement by statement, with Rust's run-time checks: /repo/belt-hash/src/lib.rs. The block cipher is external: `E`
takes an array of four words and one of eight. -/
namespace Hashes.Belt
open Rs

/-- `belt_block_raw` -/
abbrev CipherC := List W32 → List W32 → List W32

/-- `xor`, lib.rs:176-178 -/
def xorC (a b : List W32) : Option (List W32) := do
  pure [(← idx a 0) ^^^ (← idx b 0), (← idx a 1) ^^^ (← idx b 1), (← idx a 2) ^^^ (← idx b 2), (← idx a 3) ^^^ (← idx b 3)]

/-- `concat`, lib.rs:181-183 -/
def concatC (a b : List W32) : Option (List W32) := do
  pure [← idx a 0, ← idx a 1, ← idx a 2, ← idx a 3, ← idx b 0, ← idx b 1, ← idx b 2, ← idx b 3]

/-- `belt_compress`, lib.rs:158-173 -/
def beltCompressC (E : CipherC) (x1 x2 x34 : List W32) : Option (List W32 × List W32) := do
  let x3 := [← idx x34 0, ← idx x34 1, ← idx x34 2, ← idx x34 3]
  let x4 := [← idx x34 4, ← idx x34 5, ← idx x34 6, ← idx x34 7]
  let t1 := E (← xorC x3 x4) (← concatC x1 x2)
  let s ← xorC (← xorC t1 x3) x4
  let t2 := E x1 (← concatC s x4)
  let y1 ← xorC t2 x1
  let t3 := E x2 (← concatC (s.map fun v => ~~~v) x3)
  let y2 ← xorC t3 x2
  pure (s, ← concatC y1 y2)

/-- `get_u32`, lib.rs:186-188: `block[4 * i..][..4].try_into().unwrap()` -/
def getU32C (block : Bytes) (i : Nat) : Option W32 := do
  fromLe 32 (← slice (← slice block (4 * i) block.length) 0 4)

/-- `BeltHashCore`, lib.rs:36-41 -/
structure StateC where
  r : W128
  s : List W32
  h : List W32

/-- `compress_block`, lib.rs:47-63 -/
def compressBlockC (E : CipherC) (st : StateC) (block : Bytes) : Option StateC := do
  let x1 := [← getU32C block 0, ← getU32C block 1, ← getU32C block 2, ← getU32C block 3]
  let x2 := [← getU32C block 4, ← getU32C block 5, ← getU32C block 6, ← getU32C block 7]
  let (t, h) ← beltCompressC E x1 x2 st.h
  pure { st with s := st.s.zipWith (· ^^^ ·) t, h := h }

/-- `encode_r`, lib.rs:191-198 -/
def encodeRC (r : W128) : Option (List W32) := do
  let mask ← sub (← shl (1#128) 32) (1#128)
  pure [(r &&& mask).truncate 32, ((← shr r 32) &&& mask).truncate 32, ((← shr r 64) &&& mask).truncate 32,
    ((← shr r 96) &&& mask).truncate 32]

/-- `if pos != 0 { … }`, lib.rs:94-97 -/
def lastBlockC (E : CipherC) (st : StateC) (buffer : BlockBuffer) : Option StateC :=
  if buffer.pos ≠ 0 then compressBlockC E st (buffer.padWithZeros 32).1 else pure st

/-- `finalize_fixed_core`, lib.rs:92-104; the products and the sum are `u128`. -/
def finalizeC (E : CipherC) (st : StateC) (buffer : BlockBuffer) (out : Bytes) : Option Bytes := do
  let pos := buffer.pos
  let st ← lastBlockC E st buffer
  let r ← encodeRC (← mul 8 (← add (← mul 32 st.r) (BitVec.ofNat 128 pos)))
  let (_, y) ← beltCompressC E r st.s st.h
  store out y 4 fun v => leBytes 4 v.toNat

end Hashes.Belt
