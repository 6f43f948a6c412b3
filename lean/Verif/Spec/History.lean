import Verif.Model.CoreWrapper
/-
Independent specification of API histories: a hasher *is* the byte string it has absorbed since it was
created or reset.  (Only the operation alphabet `Op` and `setAt` are shared with the model.)
-/
namespace Hashes.Spec

/-- Abstract program state: every variable and every stored state is a byte log. -/
structure LogWorld where
  vars : Nat → Option Bytes
  slots : Nat → Option Bytes

/-- Effect of one call on the logs; `some m` = a digest of message `m` is requested. -/
def LogWorld.step (w : LogWorld) : Op → LogWorld × Option Bytes
  | .new h => ({ w with vars := setAt w.vars h (some []) }, none)
  | .update h d =>
    match w.vars h with
    | some m => ({ w with vars := setAt w.vars h (some (m ++ d)) }, none)
    | none => (w, none)
  | .clone s d =>
    match w.vars s with
    | some m => ({ w with vars := setAt w.vars d (some m) }, none)
    | none => (w, none)
  | .reset h =>
    match w.vars h with
    | some _ => ({ w with vars := setAt w.vars h (some []) }, none)
    | none => (w, none)
  | .finalizeReset h =>
    match w.vars h with
    | some m => ({ w with vars := setAt w.vars h (some []) }, some m)
    | none => (w, none)
  | .finalize h =>
    match w.vars h with
    | some m => ({ w with vars := setAt w.vars h none }, some m)
    | none => (w, none)
  | .save h t =>
    match w.vars h with
    | some m => ({ w with slots := setAt w.slots t (some m) }, none)
    | none => (w, none)
  | .load t h =>
    match w.slots t with
    | some m => ({ w with vars := setAt w.vars h (some m) }, none)
    | none => (w, none)

/-- Messages whose digests a history requests, in order. -/
def LogWorld.run (w : LogWorld) : List Op → List Bytes
  | [] => []
  | op :: ops =>
    let r := w.step op
    match r.2 with
    | some m => m :: LogWorld.run r.1 ops
    | none => LogWorld.run r.1 ops

/-- The messages a history (started from nothing) asks to hash. -/
def messagesOf (ops : List Op) : List Bytes := LogWorld.run ⟨fun _ => none, fun _ => none⟩ ops

end Hashes.Spec
