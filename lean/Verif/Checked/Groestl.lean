import Verif.Base.Rust
import Verif.Model.Groestl
/- Groestl statement by statement, with Rust's run-time checks: /repo/groestl/src/{compress512.rs,compress1024.rs}. -/
namespace Hashes.Groestl
open Rs

/-- `column`, compress512.rs:7-16, compress1024.rs:7-16 -/
def columnC (x : List W64) (c : List Nat) : Option W64 :=
  loop 8 (0 : W64) fun t i => do
    let sl := 8 * (← usub 7 i)
    let k := ((← shr (← idx x (← idx c i)) sl) &&& 0xFF).toNat
    pure (t ^^^ (← idx (← idx TABLE i) k))

/-- `rndq`, compress512.rs:18-33, compress1024.rs:18-41 -/
def rndqC (g : Cfg) (x : List W64) (r : W64) : Option (List W64) := do
  let x ← loop g.cols x fun x i => do
    upd x i ((← idx x i) ^^^ (((0xFFFFFFFFFFFFFFFF : W64) - (← shl (BitVec.ofNat 64 i) 4)) ^^^ r))
  g.idxQ.mapM (columnC x)

/-- `rndp`, compress512.rs:35-50, compress1024.rs:43-66 -/
def rndpC (g : Cfg) (x : List W64) (r : W64) : Option (List W64) := do
  let x ← loop g.cols x fun x i => do upd x i ((← idx x i) ^^^ ((← shl (BitVec.ofNat 64 i) 60) ^^^ r))
  g.idxP.mapM (columnC x)

/-- `compress`, compress512.rs:52-70, compress1024.rs:68-86 -/
def compressC (g : Cfg) (h : List W64) (block : Bytes) : Option (List W64) := do
  let q := List.replicate g.cols (0 : W64)
  let q ← load q block 8 (fromBe 64)
  let p := List.replicate g.cols (0 : W64)
  let p ← loop g.cols p fun p i => do upd p i ((← idx h i) ^^^ (← idx q i))
  let q ← loop g.rounds q fun q i => rndqC g q (BitVec.ofNat 64 i)
  let p ← loop g.rounds p fun p i => do rndpC g p (← shl (BitVec.ofNat 64 i) 56)
  loop g.cols h fun h i => do upd h i ((← idx h i) ^^^ ((← idx q i) ^^^ (← idx p i)))

/-- `p`, compress512.rs:72-81, compress1024.rs:88-97 -/
def pFinalC (g : Cfg) (h : List W64) : Option (List W64) := do
  let p ← loop g.rounds h fun p i => do rndpC g p (← shl (BitVec.ofNat 64 i) 56)
  loop g.cols p fun p i => do upd p i ((← idx p i) ^^^ (← idx h i))

end Hashes.Groestl
