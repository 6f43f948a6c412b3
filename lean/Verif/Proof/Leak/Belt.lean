import Verif.Leak.Belt
import Verif.Proof.Leak.Basic
/- BelT: forgetting the observations, and equal observations. -/
namespace Hashes.Belt
open Leak

theorem xorL_val (a b : List W32) : (xorL a b).val = xorC a b := by simp only [xorL, xorC, val_bind, val_idx, val_pure]; rfl
theorem concatL_val (a b : List W32) : (concatL a b).val = concatC a b := by simp only [concatL, concatC, val_bind, val_idx, val_pure]; rfl
theorem beltCompressL_val (E : CipherC) (a b c : List W32) : (beltCompressL E a b c).val = beltCompressC E a b c := by
  simp only [beltCompressL, beltCompressC, val_bind, val_idx, val_pure, xorL_val, concatL_val]; rfl
theorem getU32L_val (b : Bytes) (i : Nat) : (getU32L b i).val = getU32C b i := by simp only [getU32L, getU32C, val_bind, val_slice, val_fromLe]
theorem compressBlockL_val (E : CipherC) (s : StateC) (b : Bytes) : (compressBlockL E s b).val = compressBlockC E s b := by
  simp only [compressBlockL, compressBlockC, val_bind, getU32L_val, beltCompressL_val]; rfl
theorem encodeRL_val (r : W128) : (encodeRL r).val = encodeRC r := by
  simp only [encodeRL, encodeRC, val_bind, val_shl, val_shr, val_sub, val_pure]; rfl
theorem lastBlockL_val (E : CipherC) (s : StateC) (b : BlockBuffer) : (lastBlockL E s b).val = lastBlockC E s b := by
  simp only [lastBlockL, lastBlockC, val_branch, compressBlockL_val, val_pure]; rfl
theorem finalizeL_val (E : CipherC) (s : StateC) (b : BlockBuffer) (out : Bytes) : (finalizeL E s b out).val = finalizeC E s b out := by
  simp only [finalizeL, finalizeC, val_bind, val_add, val_mul, lastBlockL_val, encodeRL_val, beltCompressL_val, val_store]

theorem xorL_rel {a a' b b' : List W32} (h : Len a a') (hb : Len b b') : Rel Len (xorL a b) (xorL a' b') := by unfold xorL; leak
macro_rules | `(tactic| leak_use) => `(tactic| refine xorL_rel ?_ ?_)
theorem concatL_rel {a a' b b' : List W32} (h : Len a a') (hb : Len b b') : Rel Len (concatL a b) (concatL a' b') := by unfold concatL; leak
macro_rules | `(tactic| leak_use) => `(tactic| refine concatL_rel ?_ ?_)
theorem getU32L_rel {b b' : Bytes} (h : Len b b') (i : Nat) : Rel Any (getU32L b i) (getU32L b' i) :=
  Rel.bind (Rel.slice h rfl h) fun _ _ h => Rel.bind (Rel.slice h rfl rfl) fun _ _ h => Rel.fromLe h
macro_rules | `(tactic| leak_use) => `(tactic| refine getU32L_rel ?_ _)

/-- States of the same shape and with the same counter. -/
def Same (s t : StateC) : Prop := s.r = t.r ∧ s.s.length = t.s.length ∧ s.h.length = t.h.length

variable {E : CipherC} (hE : ∀ x x' k k', Len x x' → Len k k' → Len (E x k) (E x' k'))
include hE

theorem beltCompressL_rel {a a' b b' c c' : List W32} (ha : Len a a') (hb : Len b b') (hc : Len c c') :
    Rel (fun r r' => Len r.1 r'.1 ∧ Len r.2 r'.2) (beltCompressL E a b c) (beltCompressL E a' b' c') := by
  unfold beltCompressL
  repeat (refine Rel.bind (Rel.idx hc rfl) fun _ _ _ => ?_)
  exact Rel.bind (xorL_rel rfl rfl) fun _ _ h => Rel.bind (concatL_rel ha hb) fun _ _ hk => Rel.bind (xorL_rel (hE _ _ _ _ h hk) rfl) fun _ _ h =>
    Rel.bind (xorL_rel h rfl) fun _ _ hs => Rel.bind (concatL_rel hs rfl) fun _ _ hk => Rel.bind (xorL_rel (hE _ _ _ _ ha hk) ha) fun _ _ h1 =>
    Rel.bind (concatL_rel (by rw [Len, List.length_map, List.length_map]; exact hs) rfl) fun _ _ hk =>
    Rel.bind (xorL_rel (hE _ _ _ _ hb hk) hb) fun _ _ h2 => Rel.bind (concatL_rel h1 h2) fun _ _ h => Rel.pure ⟨hs, h⟩
theorem compressBlockL_rel {s s' : StateC} {b b' : Bytes} (h : Same s s') (hb : Len b b') :
    Rel Same (compressBlockL E s b) (compressBlockL E s' b') := by
  unfold compressBlockL
  repeat (refine Rel.bind (getU32L_rel hb _) fun _ _ _ => ?_)
  refine Rel.bind (beltCompressL_rel hE rfl rfl h.2.2) fun r r' hr => Rel.pure ⟨h.1, ?_, hr.2⟩
  simp [h.2.1, show r.1.length = r'.1.length from hr.1]
theorem lastBlockL_rel {s s' : StateC} {b b' : BlockBuffer} (h : Same s s') (hp : b.pos = b'.pos)
    (hd : Len (b.padWithZeros 32).1 (b'.padWithZeros 32).1) : Rel Same (lastBlockL E s b) (lastBlockL E s' b') :=
  Rel.branch (by rw [hp]) (compressBlockL_rel hE h hd) (Rel.pure h)
theorem finalizeL_rel {s s' : StateC} {b b' : BlockBuffer} {out out' : Bytes} (h : Same s s') (hp : b.pos = b'.pos)
    (hd : Len (b.padWithZeros 32).1 (b'.padWithZeros 32).1) (ho : Len out out') : Rel Len (finalizeL E s b out) (finalizeL E s' b' out') := by
  refine Rel.bind (lastBlockL_rel hE h hp hd) fun s s' h => ?_
  rw [h.1, hp]
  refine Rel.bind (Rel.refl _) fun _ _ e => ?_; subst e
  refine Rel.bind (Rel.refl _) fun _ _ e => ?_; subst e
  refine Rel.bind (Rel.refl _) fun _ _ e => ?_; subst e
  refine Rel.bind (Rel.refl _) fun _ _ e => ?_; subst e
  exact Rel.bind (beltCompressL_rel hE rfl h.2.1 h.2.2) fun _ _ h => Rel.store ho h.2 fun _ _ => by rw [Len, length_leBytes, length_leBytes]

end Hashes.Belt
