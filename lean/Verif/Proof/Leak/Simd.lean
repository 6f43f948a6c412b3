import Verif.Leak.Sha1Ptr
import Verif.Leak.Sha2Ptr
import Verif.Leak.Sha2Simd
import Verif.Proof.Leak.Soft
/- The backends with vector instructions: forgetting the observations, and equal observations. -/
namespace Hashes.Raw
open Leak

@[simp] theorem Obj.loaduL_val (o : Obj) (p : Nat) : (o.loaduL p).val = o.loadu p := rfl
@[simp] theorem Obj.storeuL_val (o : Obj) (p : Nat) (v : V128) : (o.storeuL p v).val = o.storeu p v := rfl
@[simp] theorem Obj.loadAtL_val (o : Obj) (k i : Nat) : (o.loadAtL k i).val = o.loadAt k i := rfl
@[simp] theorem Obj.storeAtL_val (o : Obj) (k i : Nat) (v : V128) : (o.storeAtL k i v).val = o.storeAt k i v := rfl
@[simp] theorem Obj.loadSliceL_val (o : Obj) (k i j : Nat) : (o.loadSliceL k i j).val = o.loadSlice k i j := rfl
@[simp] theorem Obj.storeSliceL_val (o : Obj) (k i j : Nat) (v : V128) : (o.storeSliceL k i j v).val = o.storeSlice k i j v := rfl
@[simp] theorem Obj.loadElemL_val (o : Obj) (k i : Nat) : (o.loadElemL k i).val = o.loadElem k i := rfl
@[simp] theorem addL_val (r : Region) (p n : Nat) : (addL r p n).val = add r p n := rfl
@[simp] theorem derefL_val (r : Region) (a p n : Nat) : (derefL r a p n).val = deref r a p n := rfl

theorem orel_bind {α γ δ : Type} {R : γ → δ → Prop} {x : Option α} {f : α → Option γ} {g : α → Option δ} (h : ∀ a, Option.Rel R (f a) (g a)) :
    Option.Rel R (x >>= f) (x >>= g) := by
  cases x with
  | none => exact .none
  | some a => exact h a

variable {a b : Obj}

theorem SameObj.region (h : SameObj a b) : a.region = b.region := by rw [Obj.region, Obj.region, h.1, h.2]

theorem SameObj.loadu (h : SameObj a b) (p : Nat) : Option.Rel Any (a.loadu p) (b.loadu p) := by
  rw [Obj.loadu, Obj.loadu, h.region]; exact orel_bind fun _ => .some trivial

theorem SameObj.storeu (h : SameObj a b) (p : Nat) (v v' : V128) : Option.Rel SameObj (a.storeu p v) (b.storeu p v') := by
  rw [Obj.storeu, Obj.storeu, h.region]
  refine orel_bind fun _ => .some ⟨h.1, ?_⟩
  simp only [List.length_append, List.length_take, List.length_drop, Simd.store, List.length_map, List.length_range, h.1, h.2]

theorem SameObj.loaduL (h : SameObj a b) {p q : Nat} (e : p = q) : Rel Any (a.loaduL p) (b.loaduL q) := by
  subst e; exact Rel.of_emit (h.loadu p)
theorem SameObj.storeuL (h : SameObj a b) {p q : Nat} (e : p = q) (v v' : V128) : Rel SameObj (a.storeuL p v) (b.storeuL q v') := by
  subst e; exact Rel.of_emit (h.storeu p v v')
theorem SameObj.loadAtL (h : SameObj a b) (k i : Nat) : Rel Any (a.loadAtL k i) (b.loadAtL k i) := by
  unfold Obj.loadAtL Obj.loadAt
  rw [h.1, h.region]
  exact Rel.of_emit (orel_bind fun p => h.loadu p)
theorem SameObj.storeAtL (h : SameObj a b) (k i : Nat) (v v' : V128) : Rel SameObj (a.storeAtL k i v) (b.storeAtL k i v') := by
  unfold Obj.storeAtL Obj.storeAt
  rw [h.1, h.region]
  exact Rel.of_emit (orel_bind fun p => h.storeu p v v')
theorem SameObj.loadSliceL (h : SameObj a b) (k i j : Nat) : Rel Any (a.loadSliceL k i j) (b.loadSliceL k i j) := by
  unfold Obj.loadSliceL Obj.loadSlice
  rw [h.1, h.2]
  exact Rel.of_emit (orel_bind fun _ => orel_bind fun _ => h.loadu _)
theorem SameObj.storeSliceL (h : SameObj a b) (k i j : Nat) (v v' : V128) : Rel SameObj (a.storeSliceL k i j v) (b.storeSliceL k i j v') := by
  unfold Obj.storeSliceL Obj.storeSlice
  rw [h.1, h.2]
  exact Rel.of_emit (orel_bind fun _ => orel_bind fun _ => h.storeu _ v v')

theorem sameObj_words {w n : Nat} {l l' : List (BitVec w)} (h : l.length = n) (h' : l'.length = n) (addr : Nat) :
    SameObj ⟨addr, bytesOfWordsLE l⟩ ⟨addr, bytesOfWordsLE l'⟩ := ⟨rfl, by simp only [length_bytesOfWordsLE, h, h']⟩

end Hashes.Raw

namespace Hashes.Sha1
open Leak Raw

namespace X86
theorem digestBlockL_val (r : Regs) (b : Raw.Obj) : (digestBlockL r b).val = digestBlockC r b := by
  simp only [digestBlockL, digestBlockC, val_bind, Obj.loadAtL_val, val_pure]; rfl
theorem compressL_val (addr : Nat) (s : V5 W32) (l : List Raw.Obj) : (compressL addr s l).val = compressC addr s l := by
  simp only [compressL, compressC, val_bind, val_pure, val_foldlM, digestBlockL_val, val_idx, val_upd, Obj.loaduL_val, Obj.storeuL_val]; rfl
theorem digestBlockL_rel (r r' : Regs) {b b' : Raw.Obj} (h : SameObj b b') : Rel Any (digestBlockL r b) (digestBlockL r' b') := by
  unfold digestBlockL
  iterate 4 refine Rel.bind (h.loadAtL _ _) fun _ _ _ => ?_
  exact Rel.pure trivial
theorem compressL_rel (addr : Nat) (s s' : V5 W32) {l l' : List Raw.Obj} (h : Each SameObj l l') : Rel Any (compressL addr s l) (compressL addr s' l') := by
  have ho : SameObj (stateObj addr s) (stateObj addr s') := sameObj_words rfl rfl addr
  refine Rel.bind (ho.loaduL rfl) fun _ _ _ => ?_
  refine Rel.bind (Rel.idx (show Len s.toList s'.toList from rfl) rfl) fun _ _ _ => ?_
  refine Rel.bind (Rel.foldlM (R := Any) h trivial fun _ _ _ _ _ h => digestBlockL_rel _ _ h) fun _ _ _ => ?_
  refine Rel.bind (ho.storeuL rfl _ _) fun o o' ho => ?_
  refine Rel.bind (Rel.upd (show Len _ _ by simp [Len]) rfl) fun _ _ _ => Rel.pure trivial
end X86

namespace Arm
theorem digestBlockL_val (r : Regs) (b : Raw.Obj) : (digestBlockL r b).val = digestBlockC r b := by
  simp only [digestBlockL, digestBlockC, val_bind, Obj.loadAtL_val, val_pure]; rfl
theorem compressL_val (addr : Nat) (s : V5 W32) (l : List Raw.Obj) : (compressL addr s l).val = compressC addr s l := by
  simp only [compressL, compressC, val_bind, Obj.loaduL_val, Obj.storeuL_val, val_pure, val_foldlM, digestBlockL_val, val_idx, val_upd]; rfl
theorem digestBlockL_rel (r r' : Regs) {b b' : Raw.Obj} (h : SameObj b b') : Rel Any (digestBlockL r b) (digestBlockL r' b') := by
  unfold digestBlockL
  iterate 4 refine Rel.bind (h.loadAtL _ _) fun _ _ _ => ?_
  exact Rel.pure trivial
theorem compressL_rel (addr : Nat) (s s' : V5 W32) {l l' : List Raw.Obj} (h : Each SameObj l l') : Rel Any (compressL addr s l) (compressL addr s' l') := by
  have ho : SameObj (stateObj addr s) (stateObj addr s') := sameObj_words rfl rfl addr
  refine Rel.bind (ho.loaduL rfl) fun _ _ _ => ?_
  refine Rel.bind (Rel.idx (show Len s.toList s'.toList from rfl) rfl) fun _ _ _ => ?_
  refine Rel.bind (Rel.foldlM (R := Any) h trivial fun _ _ _ _ _ h => digestBlockL_rel _ _ h) fun _ _ _ => ?_
  refine Rel.bind (ho.storeuL rfl _ _) fun o o' ho => ?_
  refine Rel.bind (Rel.upd (show Len _ _ by simp [Len]) rfl) fun _ _ _ => Rel.pure trivial
end Arm
end Hashes.Sha1

namespace Hashes.Sha256
open Leak Raw

namespace X86
theorem rounds4L_val (r : Regs) (w : V128) (i : Nat) : (rounds4L r w i).val = rounds4C r w i := by
  simp only [rounds4L, rounds4C, val_bind, val_idx, val_pure]; rfl
theorem digestBlockL_val (r : Regs) (b : Raw.Obj) : (digestBlockL r b).val = digestBlockC r b := by
  simp only [digestBlockL, digestBlockC, val_bind, Obj.loadAtL_val, val_pure, rounds4L_val]; rfl
theorem compressL_val (addr : Nat) (s : V8 W32) (l : List Raw.Obj) : (compressL addr s l).val = compressC addr s l := by
  simp only [compressL, compressC, val_bind, Obj.loadAtL_val, Obj.storeAtL_val, val_pure, val_foldlM, digestBlockL_val]; rfl
theorem rounds4L_rel (r r' : Regs) (w w' : V128) (i : Nat) : Rel Any (rounds4L r w i) (rounds4L r' w' i) :=
  Rel.bind (Rel.refl _) fun _ _ _ => Rel.pure trivial
theorem digestBlockL_rel (r r' : Regs) {b b' : Raw.Obj} (h : SameObj b b') : Rel Any (digestBlockL r b) (digestBlockL r' b') := by
  unfold digestBlockL
  iterate 4 refine Rel.bind (h.loadAtL _ _) fun _ _ _ => ?_
  iterate 16 refine Rel.bind (rounds4L_rel _ _ _ _ _) fun _ _ _ => ?_
  exact Rel.pure trivial
theorem compressL_rel (addr : Nat) (s s' : V8 W32) {l l' : List Raw.Obj} (h : Each SameObj l l') : Rel Any (compressL addr s l) (compressL addr s' l') := by
  have ho : SameObj (stateObj addr s) (stateObj addr s') := sameObj_words rfl rfl addr
  refine Rel.bind (ho.loadAtL _ _) fun _ _ _ => ?_
  refine Rel.bind (ho.loadAtL _ _) fun _ _ _ => ?_
  refine Rel.bind (Rel.foldlM (R := Any) h trivial fun _ _ _ _ _ h => digestBlockL_rel _ _ h) fun _ _ _ => ?_
  refine Rel.bind (ho.storeAtL _ _ _ _) fun _ _ ho => ?_
  exact Rel.bind (ho.storeAtL _ _ _ _) fun _ _ ho => Rel.pure trivial
end X86

namespace Arm
theorem rounds4L_val (k : Raw.Obj) (r : Regs) (w : V128) (i : Nat) : (rounds4L k r w i).val = rounds4C k r w i := by
  simp only [rounds4L, rounds4C, val_bind, Obj.loadElemL_val, val_pure]; rfl
theorem bodyL_val (k : Raw.Obj) (v : Vars) (i : Nat) : (bodyL k v i).val = bodyC k v i := by
  simp only [bodyL, bodyC, val_bind, rounds4L_val, val_pure]; rfl
theorem digestBlockL_val (k : Raw.Obj) (r : Regs) (b : Raw.Obj) : (digestBlockL k r b).val = digestBlockC k r b := by
  simp only [digestBlockL, digestBlockC, val_bind, Obj.loadSliceL_val, val_pure, rounds4L_val, val_loop, bodyL_val]; rfl
theorem compressL_val (kAddr addr : Nat) (s : V8 W32) (l : List Raw.Obj) : (compressL kAddr addr s l).val = compressC kAddr addr s l := by
  simp only [compressL, compressC, val_bind, Obj.loadSliceL_val, Obj.storeSliceL_val, val_pure, val_foldlM, digestBlockL_val]; rfl
theorem rounds4L_rel (k : Raw.Obj) (r r' : Regs) (w w' : V128) (i : Nat) : Rel Any (rounds4L k r w i) (rounds4L k r' w' i) :=
  Rel.bind (Rel.refl _) fun _ _ _ => Rel.pure trivial
theorem bodyL_rel (k : Raw.Obj) (v v' : Vars) (i : Nat) : Rel Any (bodyL k v i) (bodyL k v' i) := by
  unfold bodyL
  iterate 4 refine Rel.bind (rounds4L_rel _ _ _ _ _ _) fun _ _ _ => ?_
  exact Rel.pure trivial
theorem digestBlockL_rel (k : Raw.Obj) (r r' : Regs) {b b' : Raw.Obj} (h : SameObj b b') : Rel Any (digestBlockL k r b) (digestBlockL k r' b') := by
  unfold digestBlockL
  iterate 4 refine Rel.bind (h.loadSliceL _ _ _) fun _ _ _ => ?_
  iterate 4 refine Rel.bind (rounds4L_rel _ _ _ _ _ _) fun _ _ _ => ?_
  exact Rel.bind (Rel.loop (R := Any) rfl trivial fun _ _ _ _ => bodyL_rel _ _ _ _) fun _ _ _ => Rel.pure trivial
theorem compressL_rel (kAddr addr : Nat) (s s' : V8 W32) {l l' : List Raw.Obj} (h : Each SameObj l l') :
    Rel Any (compressL kAddr addr s l) (compressL kAddr addr s' l') := by
  have ho : SameObj (stateObj addr s) (stateObj addr s') := sameObj_words rfl rfl addr
  refine Rel.bind (ho.loadSliceL _ _ _) fun _ _ _ => ?_
  refine Rel.bind (ho.loadSliceL _ _ _) fun _ _ _ => ?_
  refine Rel.bind (Rel.foldlM (R := Any) h trivial fun _ _ _ _ _ h => digestBlockL_rel _ _ _ h) fun _ _ _ => ?_
  refine Rel.bind (ho.storeSliceL _ _ _ _ _) fun _ _ ho => ?_
  exact Rel.bind (ho.storeSliceL _ _ _ _ _) fun _ _ ho => Rel.pure trivial
end Arm
end Hashes.Sha256

namespace Hashes.Sha512.Arm
open Leak Raw

theorem rounds2L_val (k : Raw.Obj) (a b c d s : V128) (i : Nat) : (rounds2L k a b c d s i).val = rounds2C k a b c d s i := by
  simp only [rounds2L, rounds2C, val_bind, Obj.loadElemL_val, val_pure]; rfl
theorem rounds8L_val (k : Raw.Obj) (r : Regs) (a b c d : V128) (i : Nat) : (rounds8L k r a b c d i).val = rounds8C k r a b c d i := by
  simp only [rounds8L, rounds8C, val_bind, rounds2L_val, val_pure]; rfl
theorem bodyL_val (k : Raw.Obj) (v : Regs × V8 V128) (i : Nat) : (bodyL k v i).val = bodyC k v i := by
  simp only [bodyL, bodyC, val_bind, rounds2L_val, val_pure]; rfl
theorem digestBlockL_val (k : Raw.Obj) (r : Regs) (b : Raw.Obj) : (digestBlockL k r b).val = digestBlockC k r b := by
  simp only [digestBlockL, digestBlockC, val_bind, Obj.loadSliceL_val, val_pure, rounds8L_val, val_loop, bodyL_val]; rfl
theorem compressL_val (kAddr addr : Nat) (s : V8 W64) (l : List Raw.Obj) : (compressL kAddr addr s l).val = compressC kAddr addr s l := by
  simp only [compressL, compressC, storeStateL, storeStateC, val_bind, Obj.loadSliceL_val, Obj.storeSliceL_val, val_pure, val_foldlM, digestBlockL_val]; rfl
theorem rounds2L_rel (k : Raw.Obj) (a b c d s a' b' c' d' s' : V128) (i : Nat) : Rel Any (rounds2L k a b c d s i) (rounds2L k a' b' c' d' s' i) :=
  Rel.bind (Rel.refl _) fun _ _ _ => Rel.pure trivial
theorem rounds8L_rel (k : Raw.Obj) (r r' : Regs) (a b c d a' b' c' d' : V128) (i : Nat) :
    Rel Any (rounds8L k r a b c d i) (rounds8L k r' a' b' c' d' i) := by
  unfold rounds8L
  iterate 4 refine Rel.bind (rounds2L_rel _ _ _ _ _ _ _ _ _ _ _ _) fun _ _ _ => ?_
  exact Rel.pure trivial
theorem bodyL_rel (k : Raw.Obj) (v v' : Regs × V8 V128) (i : Nat) : Rel Any (bodyL k v i) (bodyL k v' i) := by
  unfold bodyL
  iterate 8 refine Rel.bind (rounds2L_rel _ _ _ _ _ _ _ _ _ _ _ _) fun _ _ _ => ?_
  exact Rel.pure trivial
theorem digestBlockL_rel (k : Raw.Obj) (r r' : Regs) {b b' : Raw.Obj} (h : SameObj b b') : Rel Any (digestBlockL k r b) (digestBlockL k r' b') := by
  unfold digestBlockL
  iterate 8 refine Rel.bind (h.loadSliceL _ _ _) fun _ _ _ => ?_
  iterate 2 refine Rel.bind (rounds8L_rel _ _ _ _ _ _ _ _ _ _ _ _) fun _ _ _ => ?_
  exact Rel.bind (Rel.loop (R := Any) rfl trivial fun _ _ _ _ => bodyL_rel _ _ _ _) fun _ _ _ => Rel.pure trivial
theorem compressL_rel (kAddr addr : Nat) (s s' : V8 W64) {l l' : List Raw.Obj} (h : Each SameObj l l') :
    Rel Any (compressL kAddr addr s l) (compressL kAddr addr s' l') := by
  have ho : SameObj (stateObj addr s) (stateObj addr s') := sameObj_words rfl rfl addr
  unfold compressL storeStateL
  iterate 4 refine Rel.bind (ho.loadSliceL _ _ _) fun _ _ _ => ?_
  refine Rel.bind (Rel.foldlM (R := Any) h trivial fun _ _ _ _ _ h => digestBlockL_rel _ _ _ h) fun _ _ _ => ?_
  refine Rel.bind (R := SameObj) ?_ fun _ _ _ => Rel.pure trivial
  refine Rel.bind (ho.storeSliceL _ _ _ _ _) fun _ _ ho => ?_
  refine Rel.bind (ho.storeSliceL _ _ _ _ _) fun _ _ ho => ?_
  exact Rel.bind (ho.storeSliceL _ _ _ _ _) fun _ _ ho => ho.storeSliceL _ _ _ _ _
end Hashes.Sha512.Arm
