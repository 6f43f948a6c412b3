import Verif.Leak.Sm3
import Verif.Proof.Leak.Basic
/- SM3: forgetting the observations, and equal observations. -/
namespace Hashes.Sm3
open Leak

theorem w1L_val (x : List W32) (i : Nat) : (w1L x i).val = w1C x i := rfl
theorem w2L_val (x : List W32) (i : Nat) : (w2L x i).val = w2C x i := by
  simp only [w2L, w2C, val_bind, w1L_val, val_usub, val_upd, val_pure]; rfl
theorem fetchL_val (a : Acc) (x : List W32) (i : Nat) : (fetchL a x i).val = fetchC a x i := by
  cases a
  · simp only [fetchL, fetchC, val_bind, w1L_val, val_pure]; rfl
  · exact w2L_val x i
theorem stepL_val (s : V8 W32 × List W32) (l : Line) : (stepL s l).val = stepC s l := by
  simp only [stepL, stepC, val_bind, w1L_val, fetchL_val, val_pure]; rfl
theorem compressU32L_val (state block : List W32) : (compressU32L state block).val = compressU32C state block := by
  simp only [compressU32L, compressU32C, val_bind, val_idx, val_upd, val_foldlM, stepL_val]
theorem compressL_val (state : List W32) (block : Bytes) : (compressL state block).val = compressC state block := by
  simp only [compressL, compressC, val_bind, val_load, val_fromBe, compressU32L_val]

theorem w1L_rel {x y : List W32} {i j : Nat} (h : Len x y) (hi : i = j) : Rel Any (w1L x i) (w1L y j) := by
  subst hi; unfold w1L; leak
macro_rules | `(tactic| leak_use) => `(tactic| refine w1L_rel ?_ ?_)
theorem w2L_rel {x y : List W32} (i : Nat) (h : Len x y) : Rel (fun r s => Len r.2 s.2) (w2L x i) (w2L y i) := by
  unfold w2L; leak
theorem fetchL_rel (a : Acc) {x y : List W32} (i : Nat) (h : Len x y) : Rel (fun r s => Len r.2 s.2) (fetchL a x i) (fetchL a y i) := by
  cases a
  · simp only [fetchL]; leak
  · exact w2L_rel i h
theorem stepL_rel {s t : V8 W32 × List W32} (l : Line) (h : Len s.2 t.2) : Rel (fun s t => Len s.2 t.2) (stepL s l) (stepL t l) := by
  unfold stepL
  refine Rel.bind (Rel.refl _) fun _ _ _ => Rel.bind (w1L_rel h rfl) fun _ _ _ => Rel.bind (fetchL_rel _ _ h) fun _ _ h => Rel.pure h
theorem compressU32L_rel {s t b c : List W32} (h : Len s t) (hb : Len b c) : Rel Len (compressU32L s b) (compressU32L t c) := by
  unfold compressU32L
  repeat (refine Rel.bind (Rel.idx h rfl) fun _ _ _ => ?_)
  refine Rel.bind (Rel.fold (R := fun s t => Len s.2 t.2) hb fun s t l h => stepL_rel l h) ?_
  leak
theorem compressL_rel {s t : List W32} {b c : Bytes} (h : Len s t) (hb : Len b c) : Rel Len (compressL s b) (compressL t c) := by
  unfold compressL
  refine Rel.bind (R := Len) ?_ fun _ _ h' => compressU32L_rel h h'
  leak

end Hashes.Sm3
