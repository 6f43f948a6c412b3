import Verif.Leak.Ascon
import Verif.Proof.Leak.Basic
/- Ascon: forgetting the observations, and equal observations. -/
namespace Hashes.Ascon
open Leak
variable (P : State → State)

theorem xorLastL_val (s : State) (b : Bytes) : (xorLastL s b).val = xorLastC s b := by
  simp only [xorLastL, xorLastC, val_branch, val_bind, val_copy, val_fromLe, val_pure]; rfl
theorem absorbLastBlockL_val (s : State) (b : Bytes) : (absorbLastBlockL P s b).val = absorbLastBlockC P s b := by
  simp only [absorbLastBlockL, absorbLastBlockC, val_bind, val_check, xorLastL_val, val_shl, val_pure]; rfl
theorem squeezeLoopL_val (s : State) (b : Bytes) : (squeezeLoopL P s b).val = squeezeLoopC P s b := by
  induction h : b.length using Nat.strongRecOn generalizing s b with
  | _ n ih =>
    rw [squeezeLoopL, squeezeLoopC]
    split
    · next hb =>
      have e := ih (b.drop 8).length (by simp only [List.length_drop]; omega) (P s) (b.drop 8) rfl
      simp only [val_bind, val_emit, val_copy, val_slice, val_pure, e]; rfl
    · rfl
theorem squeezeL_val (s : State) (b : Bytes) : (squeezeL P s b).val = squeezeC P s b := by
  simp only [squeezeL, squeezeC, val_bind, val_check, squeezeLoopL_val]
theorem absorbBlockL_val (s : State) (b : Bytes) : (absorbBlockL P s b).val = absorbBlockC P s b := by
  simp only [absorbBlockL, absorbBlockC, val_bind, val_fromLe, val_pure]; rfl
theorem finalizeXofL_val (s : State) (b : BlockBuffer) : (finalizeXofL P s b).val = finalizeXofC P s b := by
  simp only [finalizeXofL, finalizeXofC, val_bind, val_check, val_slice, absorbLastBlockL_val]
theorem finalizeL_val (s : State) (b : BlockBuffer) (out : Bytes) : (finalizeL P s b out).val = finalizeC P s b out := by
  simp only [finalizeL, finalizeC, val_bind, finalizeXofL_val, squeezeL_val]

theorem xorLastL_rel (s s' : State) {b b' : Bytes} (h : Len b b') : Rel Any (xorLastL s b) (xorLastL s' b') :=
  Rel.branch (by rw [show b.length = b'.length from h])
    (Rel.bind (Rel.copy rfl rfl h h) fun _ _ h => Rel.bind (Rel.fromLe h) fun _ _ _ => Rel.pure trivial) (Rel.pure trivial)
theorem absorbLastBlockL_rel (s s' : State) {b b' : Bytes} (h : Len b b') : Rel Any (absorbLastBlockL P s b) (absorbLastBlockL P s' b') :=
  Rel.bind (Rel.check (by rw [show b.length = b'.length from h])) fun _ _ _ => Rel.bind (xorLastL_rel _ _ h) fun _ _ _ =>
    Rel.bind (Rel.shl (by rw [show b.length = b'.length from h])) fun _ _ _ => Rel.pure trivial
theorem squeezeLoopL_rel (s s' : State) {b b' : Bytes} (h : Len b b') : Rel Len (squeezeLoopL P s b) (squeezeLoopL P s' b') := by
  induction hn : b.length using Nat.strongRecOn generalizing s s' b b' with
  | _ n ih =>
    have hl : Len (leBytes 8 s.x0.toNat) (leBytes 8 s'.x0.toNat) := by rw [Len, length_leBytes, length_leBytes]
    rw [squeezeLoopL.eq_def P s b, squeezeLoopL.eq_def P s' b']
    replace h : b.length = b'.length := h
    by_cases hb : b.length > 8
    · rw [dif_pos hb, dif_pos (h ▸ hb)]
      refine Rel.bind (Rel.refl _) fun _ _ _ => Rel.bind (Rel.copy h rfl rfl hl) fun x y hx => Rel.bind (Rel.slice h rfl h) fun _ _ _ =>
        Rel.bind (ih _ ?_ _ _ (show Len (b.drop 8) (b'.drop 8) by simp [Len, h]) rfl) fun u v hu => Rel.pure ?_
      · simp only [List.length_drop]; omega
      · simp [Len, show x.length = y.length from hx, show u.length = v.length from hu]
    · rw [dif_neg hb, dif_neg (h ▸ hb)]
      exact Rel.bind (Rel.refl _) fun _ _ _ => Rel.copy h rfl rfl hl
theorem squeezeL_rel (s s' : State) {b b' : Bytes} (h : Len b b') : Rel Len (squeezeL P s b) (squeezeL P s' b') :=
  Rel.bind (Rel.check (by rw [show b.length = b'.length from h])) fun _ _ _ => squeezeLoopL_rel P s s' h
theorem absorbBlockL_rel (s s' : State) {b b' : Bytes} (h : Len b b') : Rel Any (absorbBlockL P s b) (absorbBlockL P s' b') :=
  Rel.bind (Rel.fromLe h) fun _ _ _ => Rel.pure trivial
theorem finalizeXofL_rel (s s' : State) {b b' : BlockBuffer} (hp : b.pos = b'.pos) (hd : Len b.data b'.data) :
    Rel Any (finalizeXofL P s b) (finalizeXofL P s' b') :=
  Rel.bind (Rel.check (by rw [hp])) fun _ _ _ => Rel.bind (Rel.slice hd rfl hp) fun _ _ h => absorbLastBlockL_rel P s s' h
theorem finalizeL_rel (s s' : State) {b b' : BlockBuffer} {out out' : Bytes} (hp : b.pos = b'.pos) (hd : Len b.data b'.data) (ho : Len out out') :
    Rel Len (finalizeL P s b out) (finalizeL P s' b' out') :=
  Rel.bind (finalizeXofL_rel P s s' hp hd) fun _ _ _ => squeezeL_rel P _ _ ho

end Hashes.Ascon
