import Verif.Leak.Blake2
import Verif.Proof.Leak.Basic
/- BLAKE2: forgetting the observations, and equal observations. -/
namespace Hashes.Blake2
open Leak
variable {w : Nat}

theorem gatherL_val (m : List (BitVec w)) (a b c d : Nat) : (gatherL m a b c d).val = gatherC m a b c d := by
  simp only [gatherL, gatherC, val_bind, val_idx, val_pure]; rfl
theorem pickL_val (m : List (BitVec w)) (s : List Nat) (a b c d : Nat) : (pickL m s a b c d).val = pickC m s a b c d := by
  simp only [pickL, pickC, val_bind, val_idx, gatherL_val]
theorem roundL_val (c : Cfg w) (m : List (BitVec w)) (s : List Nat) (v : V4 (Vec w)) : (roundL c m s v).val = roundC c m s v := by
  simp only [roundL, roundC, val_bind, val_pure, pickL_val]; rfl
theorem sigmaRoundL_val (c : Cfg w) (m : List (BitVec w)) (i : Nat) (v : V4 (Vec w)) : (sigmaRoundL c m i v).val = sigmaRoundC c m i v := by
  simp only [sigmaRoundL, sigmaRoundC, val_bind, val_idx, roundL_val]
theorem t1L_val (c : Cfg w) (t : W64) : (t1L c t).val = t1C c t := by
  simp only [t1L, t1C, val_bind, val_branch, val_pure, val_shr, val_panic]; rfl
theorem extraL_val (c : Cfg w) (m : List (BitVec w)) (v : V4 (Vec w)) : (extraL c m v).val = extraC c m v := by
  simp only [extraL, extraC, val_bind, val_branch, val_pure, sigmaRoundL_val]
theorem compressL_val (c : Cfg w) (h : V2 (Vec w)) (t : W64) (block : Bytes) (f0 f1 : BitVec w) :
    (compressL c h t block f0 f1).val = compressC c h t block f0 f1 := by
  simp only [compressL, compressC, val_bind, val_pure, val_load, val_fromLe, t1L_val, extraL_val, sigmaRoundL_val]; rfl
theorem updateBlockL_val (c : Cfg w) (s : State w) (b : Bytes) : (updateBlockL c s b).val = updateBlockC c s b := by
  simp only [updateBlockL, updateBlockC, val_bind, val_pure, val_add, compressL_val]; rfl
theorem finalizeL_val (c : Cfg w) (s : State w) (buffer : BlockBuffer) (out : Bytes) : (finalizeL c s buffer out).val = finalizeC c s buffer out := by
  simp only [finalizeL, finalizeC, val_bind, val_add, val_copy, compressL_val]

theorem pickL_rel {m n : List (BitVec w)} (h : Len m n) (s : List Nat) (a b c d : Nat) : Rel Any (pickL m s a b c d) (pickL n s a b c d) := by
  unfold pickL gatherL
  refine Rel.bind (Rel.refl _) fun _ _ e => ?_; subst e
  refine Rel.bind (Rel.refl _) fun _ _ e => ?_; subst e
  refine Rel.bind (Rel.refl _) fun _ _ e => ?_; subst e
  refine Rel.bind (Rel.refl _) fun _ _ e => ?_; subst e
  leak
macro_rules | `(tactic| leak_use) => `(tactic| refine pickL_rel ?_ _ _ _ _ _)
theorem roundL_rel (c : Cfg w) {m n : List (BitVec w)} (h : Len m n) (s : List Nat) (v u : V4 (Vec w)) :
    Rel Any (roundL c m s v) (roundL c n s u) := by
  unfold roundL; leak
theorem sigmaRoundL_rel (c : Cfg w) {m n : List (BitVec w)} (h : Len m n) (i : Nat) (v u : V4 (Vec w)) :
    Rel Any (sigmaRoundL c m i v) (sigmaRoundL c n i u) :=
  Rel.bind (Rel.refl _) fun _ _ e => by subst e; exact roundL_rel c h _ v u
macro_rules | `(tactic| leak_use) => `(tactic| refine sigmaRoundL_rel _ ?_ _ _ _)
theorem extraL_rel (c : Cfg w) {m n : List (BitVec w)} (h : Len m n) (v u : V4 (Vec w)) : Rel Any (extraL c m v) (extraL c n u) :=
  Rel.branch Iff.rfl (by leak) (by leak)
macro_rules | `(tactic| leak_use) => `(tactic| refine extraL_rel _ ?_ _ _)
/-- The counter is not secret; chaining value, block and flags may be. -/
theorem compressL_rel (c : Cfg w) (h h' : V2 (Vec w)) (t : W64) {b b' : Bytes} (hb : Len b b') (f0 f1 f0' f1' : BitVec w) :
    Rel Any (compressL c h t b f0 f1) (compressL c h' t b' f0' f1') := by
  unfold compressL
  refine Rel.bind (R := Len) ?_ fun m n hm => ?_
  · leak
  refine Rel.bind (Rel.refl _) fun _ _ e => ?_; subst e
  leak
theorem updateBlockL_rel (c : Cfg w) {s s' : State w} {b b' : Bytes} (ht : s.t = s'.t) (hb : Len b b') :
    Rel (fun s s' => s.t = s'.t) (updateBlockL c s b) (updateBlockL c s' b') := by
  refine Rel.bind (Rel.add ht (by rw [show b.length = b'.length from hb])) fun t t' e => ?_
  subst e
  exact Rel.bind (compressL_rel c _ _ t hb _ _ _ _) fun _ _ _ => Rel.pure rfl
theorem finalizeL_rel (c : Cfg w) {s s' : State w} {b b' : BlockBuffer} {out out' : Bytes} (ht : s.t = s'.t) (hp : b.pos = b'.pos)
    (hd : Len (b.padWithZeros c.blockSize).1 (b'.padWithZeros c.blockSize).1) (ho : Len out out') :
    Rel Len (finalizeL c s b out) (finalizeL c s' b' out') := by
  refine Rel.bind (Rel.add ht (by rw [hp])) fun t t' e => ?_
  subst e
  refine Rel.bind (compressL_rel c _ _ t hd _ _ _ _) fun h h' _ => Rel.copy ho rfl ho ?_
  simp [Len, bytesOfWordsLE, V4.toList]

end Hashes.Blake2
