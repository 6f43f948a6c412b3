import Verif.Model.BlockBuffer
/-
Model of `digest::core_api::CoreWrapper` (external crate digest 0.11.0-pre.10, trusted base) and of the
object-level API histories a caller can perform on hashers built from it.
-/
namespace Hashes

/-- What an algorithm crate supplies: `BlockSizeUser`, `BufferKindUser`, `Default`/constructor,
`UpdateCore::update_blocks`, `FixedOutputCore::finalize_fixed_core` /
`ExtendableOutputCore::finalize_xof_core` (result type `ω`: digest bytes or reader state), `Reset`,
`SerializableState`.  Instances: e.g. /repo/sha2/src/core_api.rs:23-132. -/
structure Core (σ ω : Type) where
  kind : BufKind
  bs : Nat
  init : σ
  updateBlocks : σ → List Bytes → σ
  finalize : σ → BlockBuffer → ω
  reset : σ → σ
  serialize : σ → Bytes
  deserialize : Bytes → Option σ
  /-- `SerializedStateSize` of the core part. -/
  serLen : Nat

/-- `CoreWrapper<T> { core, buffer }`. -/
structure Hasher (σ : Type) where
  core : σ
  buf : BlockBuffer

namespace Core
variable {σ ω : Type} (c : Core σ ω)

/-- `CoreWrapper::new` / `from_core`. -/
def new : Hasher σ := ⟨c.init, BlockBuffer.empty c.bs⟩

/-- `Update::update for CoreWrapper`: `buffer.digest_blocks(input, |blocks| core.update_blocks(blocks))`. -/
def update (h : Hasher σ) (input : Bytes) : Hasher σ :=
  let r := h.buf.digestBlocks c.kind c.bs input c.updateBlocks h.core
  ⟨r.2, r.1⟩

/-- `FixedOutput::finalize_into for CoreWrapper` (consumes the hasher). -/
def finish (h : Hasher σ) : ω := c.finalize h.core h.buf

/-- `Reset::reset for CoreWrapper`: `core.reset(); buffer.reset()`. -/
def resetH (h : Hasher σ) : Hasher σ := ⟨c.reset h.core, h.buf.reset⟩

/-- `SerializableState::serialize for CoreWrapper`: core bytes then buffer bytes. -/
def save (h : Hasher σ) : Bytes := c.serialize h.core ++ h.buf.serialize c.bs

/-- `SerializableState::deserialize for CoreWrapper`: split, both parts must be accepted. -/
def load (raw : Bytes) : Option (Hasher σ) :=
  match c.deserialize (raw.take c.serLen), BlockBuffer.deserialize c.kind c.bs (raw.drop c.serLen) with
  | some s, some b => some ⟨s, b⟩
  | _, _ => none

end Core

/-! ### API histories over several hashers -/

/-- One API call.  `h`, `src`, `dst` name hasher variables, `slot` names stored byte strings. -/
inductive Op
  | new (h : Nat)
  | update (h : Nat) (data : Bytes)
  | clone (src dst : Nat)
  | reset (h : Nat)
  | finalizeReset (h : Nat)
  | finalize (h : Nat)
  | save (h slot : Nat)
  | load (slot h : Nat)

/-- Store with point update. -/
def setAt {α : Type} (f : Nat → Option α) (i : Nat) (v : Option α) : Nat → Option α :=
  fun j => if j = i then v else f j

/-- Program state: live hasher variables and stored serialized states. -/
structure World (σ : Type) where
  vars : Nat → Option (Hasher σ)
  slots : Nat → Option Bytes

/-- Effect of one API call; emitted digest if any.  Calls on dead variables are excluded by the Rust
type system and are modelled as no-ops. `finalize_reset` = finalize on the live state then reset
(digest crate `FixedOutputReset for CoreWrapper`). -/
def World.step {σ ω : Type} (c : Core σ ω) (w : World σ) : Op → World σ × Option ω
  | .new h => ({ w with vars := setAt w.vars h (some c.new) }, none)
  | .update h d =>
    match w.vars h with
    | some x => ({ w with vars := setAt w.vars h (some (c.update x d)) }, none)
    | none => (w, none)
  | .clone s d =>
    match w.vars s with
    | some x => ({ w with vars := setAt w.vars d (some x) }, none)
    | none => (w, none)
  | .reset h =>
    match w.vars h with
    | some x => ({ w with vars := setAt w.vars h (some (c.resetH x)) }, none)
    | none => (w, none)
  | .finalizeReset h =>
    match w.vars h with
    | some x => ({ w with vars := setAt w.vars h (some (c.resetH x)) }, some (c.finish x))
    | none => (w, none)
  | .finalize h =>
    match w.vars h with
    | some x => ({ w with vars := setAt w.vars h none }, some (c.finish x))
    | none => (w, none)
  | .save h t =>
    match w.vars h with
    | some x => ({ w with slots := setAt w.slots t (some (c.save x)) }, none)
    | none => (w, none)
  | .load t h =>
    match w.slots t with
    | some raw =>
      match c.load raw with
      | some x => ({ w with vars := setAt w.vars h (some x) }, none)
      | none => ({ w with vars := setAt w.vars h none }, none)
    | none => (w, none)

/-- Run a history, collecting emitted digests in order. -/
def World.run {σ ω : Type} (c : Core σ ω) (w : World σ) : List Op → List ω
  | [] => []
  | op :: ops =>
    let r := w.step c op
    match r.2 with
    | some d => d :: World.run c r.1 ops
    | none => World.run c r.1 ops

/-- No variables, no stored states. -/
def World.empty {σ : Type} : World σ := ⟨fun _ => none, fun _ => none⟩

/-- Digests emitted by a history started from nothing. -/
def runHistory {σ ω : Type} (c : Core σ ω) (ops : List Op) : List ω := World.run c World.empty ops

end Hashes
