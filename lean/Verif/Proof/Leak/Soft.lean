import Verif.Leak.SoftPtr
import Verif.Proof.Leak.Basic
/- The portable code of SHA-2 and JH: forgetting the observations, and equal observations. -/
namespace Hashes.Raw
open Leak
@[simp] theorem Obj.readAtL_val (o : Obj) (w align i : Nat) : (o.readAtL w align i).val = o.readAt w align i := rfl
/-- Objects at the same address of the same size. -/
def SameObj (a b : Obj) : Prop := a.addr = b.addr ∧ a.data.length = b.data.length
theorem SameObj.readAtL {a b : Obj} (h : SameObj a b) (w align i : Nat) : Rel Any (a.readAtL w align i) (b.readAtL w align i) := by
  unfold Obj.readAtL
  rw [h.1]
  refine Rel.of_emit ?_
  unfold Obj.readAt Obj.region
  rw [h.1, h.2]
  cases add ⟨b.addr, b.addr + b.data.length⟩ b.addr (w / 8 * i) with
  | none => exact .none
  | some p =>
    show Option.Rel Any (Option.bind (deref _ _ _ _) _) (Option.bind (deref _ _ _ _) _)
    cases deref ⟨b.addr, b.addr + b.data.length⟩ align p (w / 8) with
    | none => exact .none
    | some _ => exact .some trivial
end Hashes.Raw

namespace Hashes.Sha256
open Leak

theorem addRoundConstL_val (k : Raw.Obj) (a : V4 W32) (i : Nat) : (addRoundConstL k a i).val = addRoundConstC k a i := by
  simp only [addRoundConstL, addRoundConstC, val_bind, Raw.Obj.readAtL_val, val_pure]; rfl
theorem softRounds4L_val (k : Raw.Obj) (r : Regs) (w : V4 W32) (i : Nat) : (softRounds4L k r w i).val = softRounds4C k r w i := by
  simp only [softRounds4L, softRounds4C, val_bind, addRoundConstL_val, val_pure]; rfl
theorem digestBlockU32L_val (k : Raw.Obj) (s : V8 W32) (b : List W32) : (digestBlockU32L k s b).val = digestBlockU32C k s b := by
  simp only [digestBlockU32L, digestBlockU32C, val_bind, softRounds4L_val, val_pure]; rfl
theorem compressBlockL_val (k : Raw.Obj) (s : V8 W32) (b : Raw.Obj) : (compressBlockL k s b).val = compressBlockC k s b := by
  simp only [compressBlockL, compressBlockC, val_bind, val_load, val_fromBe, digestBlockU32L_val]
theorem compressSoftL_val (a : Nat) (s : V8 W32) (l : List Raw.Obj) : (compressSoftL a s l).val = compressSoftC a s l := by
  simp only [compressSoftL, compressSoftC, val_foldlM, compressBlockL_val]

theorem addRoundConstL_rel (k : Raw.Obj) (a b : V4 W32) (i : Nat) : Rel Any (addRoundConstL k a i) (addRoundConstL k b i) := by
  unfold addRoundConstL
  repeat (refine Rel.bind (Rel.refl _) fun _ _ _ => ?_)
  exact Rel.pure trivial
theorem softRounds4L_rel (k : Raw.Obj) (r r' : Regs) (w w' : V4 W32) (i : Nat) : Rel Any (softRounds4L k r w i) (softRounds4L k r' w' i) :=
  Rel.bind (addRoundConstL_rel k _ _ i) fun _ _ _ => Rel.pure trivial
theorem digestBlockU32L_rel (k : Raw.Obj) (s s' : V8 W32) (b b' : List W32) : Rel Any (digestBlockU32L k s b) (digestBlockU32L k s' b') := by
  unfold digestBlockU32L
  repeat (refine Rel.bind (softRounds4L_rel k _ _ _ _ _) fun _ _ _ => ?_)
  exact Rel.pure trivial
theorem compressBlockL_rel (k : Raw.Obj) (s s' : V8 W32) {b b' : Raw.Obj} (h : Len b.data b'.data) :
    Rel Any (compressBlockL k s b) (compressBlockL k s' b') :=
  Rel.bind (Rel.load rfl h fun _ _ h => Rel.fromBe h) fun _ _ _ => digestBlockU32L_rel k s s' _ _
theorem compressSoftL_rel (a : Nat) (s s' : V8 W32) {l l' : List Raw.Obj} (h : Each (fun b b' => Len b.data b'.data) l l') :
    Rel Any (compressSoftL a s l) (compressSoftL a s' l') :=
  Rel.foldlM (R := Any) h trivial fun _ _ _ _ _ h => compressBlockL_rel _ _ _ h

end Hashes.Sha256

namespace Hashes.Sha512
open Leak

theorem addRkL_val (k : Raw.Obj) (a : V2 W64) (i : Nat) : (addRkL k a i).val = addRkC k a i := by
  simp only [addRkL, addRkC, val_bind, Raw.Obj.readAtL_val, val_pure]; rfl
theorem digestBlockU64L_val (k : Raw.Obj) (s : V8 W64) (b : List W64) : (digestBlockU64L k s b).val = digestBlockU64C k s b := by
  simp only [digestBlockU64L, digestBlockU64C, val_bind, addRkL_val, val_pure]; rfl
theorem compressBlockL_val (k : Raw.Obj) (s : V8 W64) (b : Raw.Obj) : (compressBlockL k s b).val = compressBlockC k s b := by
  simp only [compressBlockL, compressBlockC, val_bind, val_load, val_fromBe, digestBlockU64L_val]
theorem compressSoftL_val (a : Nat) (s : V8 W64) (l : List Raw.Obj) : (compressSoftL a s l).val = compressSoftC a s l := by
  simp only [compressSoftL, compressSoftC, val_foldlM, compressBlockL_val]

theorem addRkL_rel (k : Raw.Obj) (a b : V2 W64) (i : Nat) : Rel Any (addRkL k a i) (addRkL k b i) := by
  unfold addRkL
  repeat (refine Rel.bind (Rel.refl _) fun _ _ _ => ?_)
  exact Rel.pure trivial
theorem digestBlockU64L_rel (k : Raw.Obj) (s s' : V8 W64) (b b' : List W64) : Rel Any (digestBlockU64L k s b) (digestBlockU64L k s' b') := by
  unfold digestBlockU64L
  repeat (refine Rel.bind (addRkL_rel k _ _ _) fun _ _ _ => ?_)
  exact Rel.pure trivial
theorem compressBlockL_rel (k : Raw.Obj) (s s' : V8 W64) {b b' : Raw.Obj} (h : Len b.data b'.data) :
    Rel Any (compressBlockL k s b) (compressBlockL k s' b') :=
  Rel.bind (Rel.load rfl h fun _ _ h => Rel.fromBe h) fun _ _ _ => digestBlockU64L_rel k s s' _ _
theorem compressSoftL_rel (a : Nat) (s s' : V8 W64) {l l' : List Raw.Obj} (h : Each (fun b b' => Len b.data b'.data) l l') :
    Rel Any (compressSoftL a s l) (compressSoftL a s' l') :=
  Rel.foldlM (R := Any) h trivial fun _ _ _ _ _ h => compressBlockL_rel _ _ _ h

end Hashes.Sha512

namespace Hashes.Jh
open Leak

theorem roundL_val (rc : List Nat) (y : V8 W128) (j : Nat) : (roundL rc y j).val = roundC rc y j := by
  simp only [roundL, roundC, val_bind, val_idx, swapL, val_emit, val_pure]; rfl
theorem e8L_val (y : V8 W128) : (e8L y).val = e8C y := by simp only [e8L, e8C, val_foldlM, val_loop, roundL_val]
theorem f8L_val (y : V8 W128) (d : Raw.Obj) : (f8L y d).val = f8C y d := by
  simp only [f8L, f8C, val_bind, Raw.Obj.readAtL_val, e8L_val, val_pure]; rfl

theorem roundL_rel (rc : List Nat) (y z : V8 W128) (j : Nat) : Rel Any (roundL rc y j) (roundL rc z j) :=
  Rel.bind (Rel.refl _) fun _ _ _ => Rel.bind (Rel.refl _) fun _ _ _ => Rel.pure trivial
theorem e8L_rel (y z : V8 W128) : Rel Any (e8L y) (e8L z) :=
  Rel.fold (R := Any) trivial fun _ _ _ _ => Rel.loop (R := Any) rfl trivial fun _ _ _ _ => roundL_rel _ _ _ _
theorem f8L_rel (y z : V8 W128) {d d' : Raw.Obj} (h : Raw.SameObj d d') : Rel Any (f8L y d) (f8L z d') := by
  unfold f8L
  repeat (refine Rel.bind (h.readAtL _ _ _) fun _ _ _ => ?_)
  refine Rel.bind (e8L_rel _ _) fun _ _ _ => ?_
  repeat (refine Rel.bind (h.readAtL _ _ _) fun _ _ _ => ?_)
  exact Rel.pure trivial

end Hashes.Jh
