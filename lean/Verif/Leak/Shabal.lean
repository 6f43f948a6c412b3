import Verif.Base.Leak
import Verif.Checked.Shabal
/- Shabal with what an observer of the memory accesses and branches sees (Base/Leak.lean); written by tools/gen_leak.py from
Verif/Checked/Shabal.lean, which says what is modelled. -/
namespace Hashes.Shabal
open Leak
/-- `add_m`, core_api.rs:33-37 -/
def addML (s : StateC) (m : List W32) : Leak StateC := do
  pure { s with b := ← loop 16 s.b fun b i => do upd b i ((← idx b i) + (← idx m i)) }

/-- `sub_m`, core_api.rs:40-44 -/
def subML (s : StateC) (m : List W32) : Leak StateC := do
  pure { s with c := ← loop 16 s.c fun c i => do upd c i ((← idx c i) - (← idx m i)) }

/-- `xor_w`, core_api.rs:46-49 -/
def xorWL (s : StateC) : Leak StateC := do
  let a ← upd s.a 0 ((← idx s.a 0) ^^^ s.w.truncate 32)
  pure { s with a := ← upd a 1 ((← idx a 1) ^^^ (← shr s.w 32).truncate 32) }

/-- `perm_elt`, core_api.rs:72-94 -/
def permEltL (s : StateC) (xa0 xa1 xb0 xb1 xb2 xb3 xc0 : Nat) (xm : W32) : Leak StateC := do
  let xc ← idx s.c xc0
  let t1 := (← idx s.a xa1).rotateLeft 15
  let t2 := t1 * 5
  let t3 := ((← idx s.a xa0) ^^^ t2 ^^^ xc) * 3
  let a ← upd s.a xa0 (t3 ^^^ (← idx s.b xb1) ^^^ ((← idx s.b xb2) &&& ~~~(← idx s.b xb3)) ^^^ xm)
  let t := (← idx s.b xb0).rotateLeft 1
  let b ← upd s.b xb0 (~~~(t ^^^ (← idx a xa0)))
  pure { s with a := a, b := b }

/-- `perm_blocks`, core_api.rs:96-145 -/
def permBlocksL (s : StateC) (m : List W32) : Leak StateC :=
  permTable.foldlM (fun s r => do
    permEltL s (r.getD 0 0) (r.getD 1 0) (r.getD 2 0) (r.getD 3 0) (r.getD 4 0) (r.getD 5 0) (r.getD 6 0)
      (← idx m (r.getD 7 0))) s

/-- `perm`, core_api.rs:51-69: the twelve statements `a[i] += c[j] + c[k] + c[l]` are those of `addTable`, in order. -/
def permL (s : StateC) (m : List W32) : Leak StateC := do
  let s ← permBlocksL { s with b := s.b.map fun x => x.rotateLeft 17 } m
  let a ← loop 12 s.a fun a i => do
    let t := addTable.getD i (0, 0, 0)
    upd a i ((← idx a i) + ((← idx s.c t.1) + (← idx s.c t.2.1) + (← idx s.c t.2.2)))
  pure { s with a := a }

/-- `read_m`, core_api.rs:153-160 -/
def readML (b : Bytes) : Leak (List W32) := load (List.replicate 16 (0 : W32)) b 4 (fromLe 32)

/-- One iteration of `update_blocks`, core_api.rs:175-183 -/
def compressL (s : StateC) (block : Bytes) : Leak StateC := do
  let m ← readML block
  let s ← addML s m
  let s ← xorWL s
  let s ← permL s m
  let s ← subML s m
  let s := swapBCC s
  pure { s with w := s.w + 1 }

/-- `finalize_variable_core`, core_api.rs:214-232 -/
def finalizeL (s : StateC) (buffer : BlockBuffer) (out : Bytes) : Leak Bytes := do
  let pos := buffer.pos
  let block ← upd (buffer.padWithZeros 64).1 pos 0x80
  let m ← readML block
  let s ← addML s m
  let s ← xorWL s
  let s ← permL s m
  let s ← loop 3 s fun s _ => do
    let s ← xorWL (swapBCC s)
    permL s m
  store out s.b 4 fun v => leBytes 4 v.toNat

end Hashes.Shabal
