import Verif.Checked.Run
import Verif.Checked.Serialize
import Verif.Model.CoreWrapper
/-
Whole programs on several hashers in a build with overflow checks: the calls of Model/CoreWrapper.lean (external crate digest 0.11.0-pre.10,
`CoreWrapper`), with cores and serialization whose operations may panic.  A panic ends the program.
-/
namespace Hashes.Rs

/-- Program state: live hasher variables (core and buffer) and stored serialized states. -/
structure WorldC (τ : Type) where
  vars : Nat → Option (τ × BlockBuffer)
  slots : Nat → Option Bytes

/-- One call; outer `none` is a panic.  Like `World.step`. -/
def WorldC.step {τ ω : Type} (c : CoreC τ ω) (S : WrapC τ) (w : WorldC τ) : Op → Option (WorldC τ × Option ω)
  | .new h => do
    let s ← c.init
    pure ({ w with vars := setAt w.vars h (some (s, BlockBuffer.empty c.bs)) }, none)
  | .update h d =>
    match w.vars h with
    | some x => do
      let y ← c.updateC x d
      pure ({ w with vars := setAt w.vars h (some y) }, none)
    | none => pure (w, none)
  | .clone s d =>
    match w.vars s with
    | some x => pure ({ w with vars := setAt w.vars d (some x) }, none)
    | none => pure (w, none)
  | .reset h =>
    match w.vars h with
    | some x => do
      let y ← c.resetC x
      pure ({ w with vars := setAt w.vars h (some y) }, none)
    | none => pure (w, none)
  | .finalizeReset h =>
    match w.vars h with
    | some x => do
      let d ← c.finalize x.1 x.2
      let y ← c.resetC x
      pure ({ w with vars := setAt w.vars h (some y) }, some d)
    | none => pure (w, none)
  | .finalize h =>
    match w.vars h with
    | some x => do
      let d ← c.finalize x.1 x.2
      pure ({ w with vars := setAt w.vars h none }, some d)
    | none => pure (w, none)
  | .save h t =>
    match w.vars h with
    | some x => do
      let raw ← S.save c.bs x.1 x.2
      pure ({ w with slots := setAt w.slots t (some raw) }, none)
    | none => pure (w, none)
  | .load t h =>
    match w.slots t with
    | some raw => do
      let x ← S.load c.kind c.bs raw
      pure ({ w with vars := setAt w.vars h x }, none)
    | none => pure (w, none)

/-- A whole program: the digests it emits, or `none` when one of its calls panics. -/
def WorldC.run {τ ω : Type} (c : CoreC τ ω) (S : WrapC τ) (w : WorldC τ) : List Op → Option (List ω)
  | [] => some []
  | op :: ops => do
    let r ← w.step c S op
    let ds ← WorldC.run c S r.1 ops
    pure (match r.2 with
      | some d => d :: ds
      | none => ds)

end Hashes.Rs
