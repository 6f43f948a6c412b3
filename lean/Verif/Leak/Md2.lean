import Verif.Base.Leak
import Verif.Checked.Md2
/- Md2 with what an observer of the memory accesses and branches sees (Base/Leak.lean); written by tools/gen_leak.py from
Verif/Checked/Md2.lean, which says what is modelled. -/
namespace Hashes.Md2
open Leak
/-- `compress`, lib.rs:46-68 -/
def compressL (st : State) (block : Bytes) : Leak State := do
  let x ← loop 16 st.x fun x j => do
    let x ← upd x (16 + j) (← idx block j)
    upd x (32 + j) ((← idx x (16 + j)) ^^^ (← idx x j))
  let (x, _) ← loop 18 (x, (0 : Byte)) fun (x, t) j => do
    let (x, t) ← loop 48 (x, t) fun (x, t) k => do
      let x ← upd x k ((← idx x k) ^^^ (← idx S t.toNat))
      let t ← idx x k
      pure (x, t)
    pure (x, t + BitVec.ofNat 8 j)
  let l ← idx st.checksum 15
  let (checksum, _) ← loop 16 (st.checksum, l) fun (c, l) j => do
    let c ← upd c j ((← idx c j) ^^^ (← idx S ((← idx block j) ^^^ l).toNat))
    let l ← idx c j
    pure (c, l)
  pure ⟨x, checksum⟩

/-- `finalize_fixed_core`, lib.rs:96-106 -/
def finalizeL (st : State) (buffer : BlockBuffer) : Leak Bytes := do
  let pos := buffer.pos
  let rem : Byte := BitVec.ofNat 8 (16 - pos)
  let block := (buffer.padWithZeros 16).1
  let rest ← slice block pos 16
  let block ← copy block pos 16 (rest.map fun _ => rem)
  let st ← compressL st block
  let st ← compressL st st.checksum
  slice st.x 0 16

end Hashes.Md2
