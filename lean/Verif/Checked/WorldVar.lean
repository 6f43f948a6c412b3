import Verif.Checked.Hashers
import Verif.Model.CoreWrapper
/-
Programs on hashers whose output size is chosen at run time, in a build with overflow checks: `RtVariableCoreWrapper` of the external crate
digest 0.11.0-pre.10 around the crates' `VariableOutputCore`s.  A panic ends the program; a rejected size or a buffer of the wrong size is
an `Err` that the program sees.
-/
namespace Hashes.Rs

/-- What a crate supplies to `RtVariableCoreWrapper`, with panics. -/
structure VarC (τ : Type) where
  /-- `VariableOutputCore::new(output_size)`: `some none` is `Err(InvalidOutputSize)`. -/
  new : Nat → Option (Option τ)
  /-- `update_blocks`, and `finalize_variable_core` followed by the copy of `n` bytes; `init` is not used -/
  core : Nat → CoreC τ Bytes
  /-- `Reset::reset`, for the cores that implement it -/
  reset : Option (τ → τ)

/-- The calls of a program on such hashers. -/
inductive RtOp
  /-- `if let Ok(x) = T::new(n) { h = x }` -/
  | new (h n : Nat)
  | update (h : Nat) (data : Bytes)
  | clone (src dst : Nat)
  | reset (h : Nat)
  /-- `h.finalize_variable_reset(&mut out)` with `out.len() = len` -/
  | finalizeReset (h len : Nat)
  /-- `h.finalize_variable(&mut out)`, which consumes the hasher, also when it fails -/
  | finalize (h len : Nat)

def RtOp.usesReset : RtOp → Bool
  | .reset _ => true
  | .finalizeReset _ _ => true
  | _ => false

/-- What the program sees of a call. -/
inductive RtOut
  | created
  | invalidOutputSize
  | invalidBufferSize
  | digest (d : Bytes)
deriving DecidableEq

/-- `RtVariableCoreWrapper { core, buffer, output_size }` -/
structure RtC (τ : Type) where
  x : τ × BlockBuffer
  size : Nat

/-- `finalize_dirty(out)`: `some none` is `Err(InvalidBufferSize)`. -/
def RtC.finalizeDirty {τ : Type} (V : VarC τ) (r : RtC τ) (len : Nat) : Option (Option Bytes) :=
  if len ≠ r.size then some none else ((V.core r.size).finalize r.x.1 r.x.2).map some

/-- One call; outer `none` is a panic.  Variables that hold no hasher are left alone, and so are calls of `reset` on types that have none.
The core is reset as it was before finalization: `finalize_variable_core` changes only fields that `reset` overwrites (/repo/blake2/src/macros.rs:217-236). -/
def VarC.step {τ : Type} (V : VarC τ) (w : Nat → Option (RtC τ)) : RtOp → Option ((Nat → Option (RtC τ)) × Option RtOut)
  | .new h n => do
    match ← V.new n with
    | some s => pure (setAt w h (some ⟨(s, BlockBuffer.empty (V.core n).bs), n⟩), some .created)
    | none => pure (w, some .invalidOutputSize)
  | .update h d =>
    match w h with
    | some r => do
      let y ← (V.core r.size).updateC r.x d
      pure (setAt w h (some { r with x := y }), none)
    | none => pure (w, none)
  | .clone s d =>
    match w s with
    | some r => pure (setAt w d (some r), none)
    | none => pure (w, none)
  | .reset h =>
    match w h, V.reset with
    | some r, some f => pure (setAt w h (some { r with x := (f r.x.1, r.x.2.reset) }), none)
    | _, _ => pure (w, none)
  | .finalizeReset h len =>
    match w h, V.reset with
    | some r, some f => do
      match ← r.finalizeDirty V len with
      | some d => pure (setAt w h (some { r with x := (f r.x.1, r.x.2.reset) }), some (.digest d))
      | none => pure (w, some .invalidBufferSize)
    | _, _ => pure (w, none)
  | .finalize h len =>
    match w h with
    | some r => do
      match ← r.finalizeDirty V len with
      | some d => pure (setAt w h none, some (.digest d))
      | none => pure (setAt w h none, some .invalidBufferSize)
    | none => pure (w, none)

/-- A whole program: what it sees, or `none` when one of its calls panics. -/
def VarC.run {τ : Type} (V : VarC τ) (w : Nat → Option (RtC τ)) : List RtOp → Option (List RtOut)
  | [] => some []
  | op :: ops => do
    let r ← V.step w op
    let os ← V.run r.1 ops
    pure (r.2.toList ++ os)

end Hashes.Rs

namespace Hashes
open Rs

/-- `Blake2bVar`, `Blake2sVar`: /repo/blake2/src/lib.rs:67, :101; `new`, macros.rs:209-215; `Reset`, macros.rs:229-236. -/
def Blake2.varC {w : Nat} (c : Blake2.Cfg w) : VarC (Blake2.State w) where
  new := fun n => if n > c.bytes then some none else (Blake2.newWithParamsC c [] [] 0 n).map some
  core := fun n => Blake2.blake2C c none n
  reset := some Blake2.reset

/-- `GroestlShortVar`, `GroestlLongVar`: /repo/groestl/src/lib.rs:41, :172; no `Reset`. -/
def Groestl.varC (g : Groestl.Cfg) : VarC (List W64 × W64) where
  new := fun n => some ((Groestl.new g n).map fun s => (s.state.toList, s.blocksLen))
  core := Groestl.groestlC g
  reset := none

/-- `KupynaShortVar`, `KupynaLongVar`: /repo/kupyna/src/lib.rs:28, :35; no `Reset`. -/
def Kupyna.varC (g : Kupyna.Cfg) : VarC (List W64 × W64) where
  new := fun n => some ((Kupyna.new g n).map fun s => (s.state.toList, s.blocksLen))
  core := Kupyna.kupynaC g
  reset := none

end Hashes
