import Verif.Base.Leak
import Verif.Checked.Groestl
/- Groestl with what an observer of the memory accesses and branches sees (Base/Leak.lean); written by tools/gen_leak.py from
Verif/Checked/Groestl.lean, which says what is modelled. -/
namespace Hashes.Groestl
open Leak
/-- `column`, compress512.rs:7-16, compress1024.rs:7-16 -/
def columnL (x : List W64) (c : List Nat) : Leak W64 :=
  loop 8 (0 : W64) fun t i => do
    let sl := 8 * (← usub 7 i)
    let k := ((← shr (← idx x (← idx c i)) sl) &&& 0xFF).toNat
    pure (t ^^^ (← idx (← idx TABLE i) k))

/-- `rndq`, compress512.rs:18-33, compress1024.rs:18-41 -/
def rndqL (g : Cfg) (x : List W64) (r : W64) : Leak (List W64) := do
  let x ← loop g.cols x fun x i => do
    upd x i ((← idx x i) ^^^ (((0xFFFFFFFFFFFFFFFF : W64) - (← shl (BitVec.ofNat 64 i) 4)) ^^^ r))
  g.idxQ.mapM (columnL x)

/-- `rndp`, compress512.rs:35-50, compress1024.rs:43-66 -/
def rndpL (g : Cfg) (x : List W64) (r : W64) : Leak (List W64) := do
  let x ← loop g.cols x fun x i => do upd x i ((← idx x i) ^^^ ((← shl (BitVec.ofNat 64 i) 60) ^^^ r))
  g.idxP.mapM (columnL x)

/-- `compress`, compress512.rs:52-70, compress1024.rs:68-86 -/
def compressL (g : Cfg) (h : List W64) (block : Bytes) : Leak (List W64) := do
  let q := List.replicate g.cols (0 : W64)
  let q ← load q block 8 (fromBe 64)
  let p := List.replicate g.cols (0 : W64)
  let p ← loop g.cols p fun p i => do upd p i ((← idx h i) ^^^ (← idx q i))
  let q ← loop g.rounds q fun q i => rndqL g q (BitVec.ofNat 64 i)
  let p ← loop g.rounds p fun p i => do rndpL g p (← shl (BitVec.ofNat 64 i) 56)
  loop g.cols h fun h i => do upd h i ((← idx h i) ^^^ ((← idx q i) ^^^ (← idx p i)))

/-- `p`, compress512.rs:72-81, compress1024.rs:88-97 -/
def pFinalL (g : Cfg) (h : List W64) : Leak (List W64) := do
  let p ← loop g.rounds h fun p i => do rndpL g p (← shl (BitVec.ofNat 64 i) 56)
  loop g.cols p fun p i => do upd p i ((← idx p i) ^^^ (← idx h i))

end Hashes.Groestl
