import Verif.Model.CoreWrapper
/-
Model of the variable-output-size layer of the `digest` crate (external, trusted base):
`VariableOutputCore`, `CtVariableCoreWrapper`, `RtVariableCoreWrapper`.
-/
namespace Hashes

/-- `digest::core_api::TruncSide`. -/
inductive TruncSide
  | left
  | right
deriving DecidableEq, Repr

/-- What a crate supplies as `VariableOutputCore` (e.g. /repo/sha2/src/core_api.rs:50-75). -/
structure VarCore (σ : Type) where
  kind : BufKind
  bs : Nat
  /-- `OutputSize`: full length of the buffer written by `finalize_variable_core`. -/
  outLen : Nat
  /-- `new(output_size)`: `none` is `Err(InvalidOutputSize)`. -/
  new : Nat → Option σ
  updateBlocks : σ → List Bytes → σ
  finalizeFull : σ → BlockBuffer → Bytes
  side : TruncSide
  serialize : σ → Bytes
  deserialize : Bytes → Option σ
  serLen : Nat

/-- The bytes `CtVariableCoreWrapper`/`RtVariableCoreWrapper` copy out of the full output. -/
def truncate (side : TruncSide) (n : Nat) (full : Bytes) : Bytes :=
  match side with
  | .left => full.take n
  | .right => full.drop (full.length - n)

namespace VarCore
variable {σ : Type}

/-- `CtVariableCoreWrapper<T, OutSize>` around the state `init = T::new(OutSize)`.
`Reset` recreates the core (`*self = Default::default()`); the serialized form is the inner state followed
by the output size byte (confirmed by /repo/sha2/tests/mod.rs:10-22), which is checked on deserialization. -/
def ctWith (v : VarCore σ) (n : Nat) (init : σ) : Core σ Bytes where
  kind := v.kind
  bs := v.bs
  init := init
  updateBlocks := v.updateBlocks
  finalize := fun s b => truncate v.side n (v.finalizeFull s b)
  reset := fun _ => init
  serialize := fun s => v.serialize s ++ [BitVec.ofNat 8 n]
  deserialize := fun raw =>
    match raw.drop v.serLen with
    | [o] => if o ≠ BitVec.ofNat 8 n then none else v.deserialize (raw.take v.serLen)
    | _ => none
  serLen := v.serLen + 1

/-- `CtVariableCoreWrapper::default()`: panics (`none`) when `new` rejects the size; the type system
additionally requires `OutSize ≤ OutputSize`. -/
def ct (v : VarCore σ) (n : Nat) : Option (Core σ Bytes) :=
  if n ≤ v.outLen then (v.new n).map (v.ctWith n) else none

/-- `RtVariableCoreWrapper { core, buffer, output_size }`. -/
structure Rt (σ : Type) where
  h : Hasher σ
  size : Nat

/-- `VariableOutput::new(output_size)`. -/
def rtNew (v : VarCore σ) (n : Nat) : Option (Rt σ) :=
  (v.new n).map fun s => ⟨⟨s, BlockBuffer.empty v.bs⟩, n⟩

/-- `Update::update`. -/
def rtUpdate (v : VarCore σ) (r : Rt σ) (input : Bytes) : Rt σ :=
  let x := r.h.buf.digestBlocks v.kind v.bs input v.updateBlocks r.h.core
  { r with h := ⟨x.2, x.1⟩ }

/-- `VariableOutput::finalize_variable(out)`: `none` is `Err(InvalidBufferSize)`; otherwise the bytes
written to `out` (whose length is `outBufLen`). -/
def rtFinalize (v : VarCore σ) (r : Rt σ) (outBufLen : Nat) : Option Bytes :=
  if outBufLen ≠ r.size then none
  else some (truncate v.side r.size (v.finalizeFull r.h.core r.h.buf))

end VarCore
end Hashes
