import Verif.Base.Rust
import Verif.Model.Md2
/- MD2 statement by statement, with Rust's run-time checks: /repo/md2/src/lib.rs. -/
namespace Hashes.Md2
open Rs

/-- `compress`, lib.rs:46-68 -/
def compressC (st : State) (block : Bytes) : Option State := do
  let x ← loop 16 st.x fun x j => do
    let x ← upd x (16 + j) (← idx block j)
    upd x (32 + j) ((← idx x (16 + j)) ^^^ (← idx x j))
  let (x, _) ← loop 18 (x, (0 : Byte)) fun (x, t) j => do
    let (x, t) ← loop 48 (x, t) fun (x, t) k => do
      let x ← upd x k ((← idx x k) ^^^ (← idx S t.toNat))
      let t ← idx x k
      pure (x, t)
    pure (x, t + BitVec.ofNat 8 j)
  let l ← idx st.checksum 15
  let (checksum, _) ← loop 16 (st.checksum, l) fun (c, l) j => do
    let c ← upd c j ((← idx c j) ^^^ (← idx S ((← idx block j) ^^^ l).toNat))
    let l ← idx c j
    pure (c, l)
  pure ⟨x, checksum⟩

/-- `finalize_fixed_core`, lib.rs:96-106 -/
def finalizeC (st : State) (buffer : BlockBuffer) : Option Bytes := do
  let pos := buffer.pos
  let rem : Byte := BitVec.ofNat 8 (16 - pos)
  let block := (buffer.padWithZeros 16).1
  let rest ← slice block pos 16
  let block ← copy block pos 16 (rest.map fun _ => rem)
  let st ← compressC st block
  let st ← compressC st st.checksum
  slice st.x 0 16

end Hashes.Md2
