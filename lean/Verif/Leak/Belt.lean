import Verif.Base.Leak
import Verif.Checked.Belt
/- Belt with what an observer of the memory accesses and branches sees (Base/Leak.lean); written by tools/gen_leak.py from
Verif/Checked/Belt.lean, which says what is modelled. -/
namespace Hashes.Belt
open Leak
/-- `xor`, lib.rs:176-178 -/
def xorL (a b : List W32) : Leak (List W32) := do
  pure [(← idx a 0) ^^^ (← idx b 0), (← idx a 1) ^^^ (← idx b 1), (← idx a 2) ^^^ (← idx b 2), (← idx a 3) ^^^ (← idx b 3)]

/-- `concat`, lib.rs:181-183 -/
def concatL (a b : List W32) : Leak (List W32) := do
  pure [← idx a 0, ← idx a 1, ← idx a 2, ← idx a 3, ← idx b 0, ← idx b 1, ← idx b 2, ← idx b 3]

/-- `belt_compress`, lib.rs:158-173 -/
def beltCompressL (E : CipherC) (x1 x2 x34 : List W32) : Leak (List W32 × List W32) := do
  let x3 := [← idx x34 0, ← idx x34 1, ← idx x34 2, ← idx x34 3]
  let x4 := [← idx x34 4, ← idx x34 5, ← idx x34 6, ← idx x34 7]
  let t1 := E (← xorL x3 x4) (← concatL x1 x2)
  let s ← xorL (← xorL t1 x3) x4
  let t2 := E x1 (← concatL s x4)
  let y1 ← xorL t2 x1
  let t3 := E x2 (← concatL (s.map fun v => ~~~v) x3)
  let y2 ← xorL t3 x2
  pure (s, ← concatL y1 y2)

/-- `get_u32`, lib.rs:186-188: `block[4 * i..][..4].try_into().unwrap()` -/
def getU32L (block : Bytes) (i : Nat) : Leak W32 := do
  fromLe 32 (← slice (← slice block (4 * i) block.length) 0 4)

/-- `compress_block`, lib.rs:47-63 -/
def compressBlockL (E : CipherC) (st : StateC) (block : Bytes) : Leak StateC := do
  let x1 := [← getU32L block 0, ← getU32L block 1, ← getU32L block 2, ← getU32L block 3]
  let x2 := [← getU32L block 4, ← getU32L block 5, ← getU32L block 6, ← getU32L block 7]
  let (t, h) ← beltCompressL E x1 x2 st.h
  pure { st with s := st.s.zipWith (· ^^^ ·) t, h := h }

/-- `encode_r`, lib.rs:191-198 -/
def encodeRL (r : W128) : Leak (List W32) := do
  let mask ← sub (← shl (1#128) 32) (1#128)
  pure [(r &&& mask).truncate 32, ((← shr r 32) &&& mask).truncate 32, ((← shr r 64) &&& mask).truncate 32,
    ((← shr r 96) &&& mask).truncate 32]

/-- `if pos != 0 { … }`, lib.rs:94-97 -/
def lastBlockL (E : CipherC) (st : StateC) (buffer : BlockBuffer) : Leak StateC :=
  branch (buffer.pos ≠ 0) (compressBlockL E st (buffer.padWithZeros 32).1) (pure st)

/-- `finalize_fixed_core`, lib.rs:92-104; the products and the sum are `u128`. -/
def finalizeL (E : CipherC) (st : StateC) (buffer : BlockBuffer) (out : Bytes) : Leak Bytes := do
  let pos := buffer.pos
  let st ← lastBlockL E st buffer
  let r ← encodeRL (← mul 8 (← add (← mul 32 st.r) (BitVec.ofNat 128 pos)))
  let (_, y) ← beltCompressL E r st.s st.h
  store out y 4 fun v => leBytes 4 v.toNat

end Hashes.Belt
