import Verif.Leak.Skein
import Verif.Proof.Leak.Basic
import Verif.Proof.Leak.Keccak
/- Skein: forgetting the observations, and equal observations. -/
namespace Hashes.Skein
open Leak

theorem processBlockL_val (E : CipherC) (n : Nat) (s : StateC) (block : Bytes) (k : Nat) :
    (processBlockL E n s block k).val = processBlockC E n s block k := by
  simp only [processBlockL, processBlockC, val_bind, val_add, val_load, val_fromLe, val_loop, val_idx, val_upd, val_pure]; rfl
theorem outChunkL_val (E : CipherC) (n : Nat) (x : List W64) (block : Bytes) (i : Nat) (chunk : Bytes) :
    (outChunkL E n x block i chunk).val = outChunkC E n x block i chunk := by
  simp only [outChunkL, outChunkC, val_bind, val_copy, processBlockL_val, val_store, val_pure]; rfl
theorem outLoopL_val (E : CipherC) (n : Nat) (x : List W64) (block : Bytes) (i : Nat) (l : List Bytes) :
    (outLoopL E n x block i l).val = outLoopC E n x block i l := by
  induction l generalizing block i with
  | nil => simp only [outLoopL, outLoopC, val_pure]
  | cons c l ih => simp only [outLoopL, outLoopC, val_bind, outChunkL_val, ih, val_pure]; rfl
theorem finalizeL_val (E : CipherC) (n : Nat) (s : StateC) (buffer : BlockBuffer) (out : Bytes) :
    (finalizeL E n s buffer out).val = finalizeC E n s buffer out := by
  simp only [finalizeL, finalizeC, val_bind, processBlockL_val, outLoopL_val, val_pure]; rfl

/-- States with the same counter and flags. -/
def Same (s t : StateC) : Prop := s.t0 = t.t0 ∧ s.t1 = t.t1 ∧ s.x.length = t.x.length

variable {E : CipherC} (hE : ∀ k k' t b b', Len k k' → Len b b' → Len (E k t b) (E k' t b'))
include hE

theorem processBlockL_rel (n : Nat) {s s' : StateC} {b b' : Bytes} (k : Nat) (h : Same s s') (hb : Len b b') :
    Rel Same (processBlockL E n s b k) (processBlockL E n s' b' k) := by
  obtain ⟨h0, h1, hx⟩ := h
  refine Rel.bind (Rel.add h0 rfl) fun t0 t0' e => ?_
  subst e
  refine Rel.bind (Rel.load rfl hb fun c c' h => Rel.fromLe h) fun t t' ht => ?_
  simp only [h1]
  have hy := hE s.x s'.x (t0, s'.t1) t t' hx ht
  refine Rel.bind (Rel.loop (R := Len) rfl hx ?_) fun _ _ h => Rel.pure ⟨rfl, rfl, h⟩
  leak
theorem outChunkL_rel (n : Nat) {x x' : List W64} {b b' : Bytes} (i : Nat) {c c' : Bytes} (hx : Len x x') (hb : Len b b') (hc : Len c c') :
    Rel (fun r r' => Len r.1 r'.1 ∧ Len r.2 r'.2) (outChunkL E n x b i c) (outChunkL E n x' b' i c') :=
  Rel.bind (Rel.copy hb rfl rfl rfl) fun _ _ hb => Rel.bind (processBlockL_rel hE n 8 ⟨rfl, rfl, hx⟩ hb) fun _ _ h =>
    Rel.bind (Rel.store hc h.2.2 fun _ _ => by rw [Len, length_leBytes, length_leBytes]) fun _ _ hc => Rel.pure ⟨hb, hc⟩
theorem outLoopL_rel (n : Nat) {x x' : List W64} {b b' : Bytes} (i : Nat) {l l' : List Bytes} (hx : Len x x') (hb : Len b b')
    (hl : Each Len l l') : Rel (Each Len) (outLoopL E n x b i l) (outLoopL E n x' b' i l') := by
  induction hl generalizing b b' i with
  | nil => simp only [outLoopL]; exact Rel.pure .nil
  | cons h _ ih =>
    simp only [outLoopL]
    exact Rel.bind (outChunkL_rel hE n i hx hb h) fun _ _ hr => Rel.bind (ih (i + 1) hr.1) fun _ _ h => Rel.pure (.cons hr.2 h)
omit hE in
theorem chunksMut_rel (k : Nat) {a b : Bytes} (h : Len a b) : Each Len (chunksMut k a) (chunksMut k b) := by
  rw [chunksMut, chunksMut, ← show a.length = b.length from h]
  generalize List.range _ = l
  induction l with
  | nil => exact .nil
  | cons i l ih => exact .cons (by simp [Len, show a.length = b.length from h]) ih
theorem finalizeL_rel (n : Nat) {s s' : StateC} {b b' : BlockBuffer} {out out' : Bytes} (h : Same s s') (hp : b.pos = b'.pos)
    (hd : Len (b.padWithZeros (8 * n)).1 (b'.padWithZeros (8 * n)).1) (ho : Len out out') :
    Rel Len (finalizeL E n s b out) (finalizeL E n s' b' out') := by
  unfold finalizeL
  simp only [hp]
  exact Rel.bind (processBlockL_rel hE n _ ⟨h.1, by simp only [h.2.1], h.2.2⟩ hd) fun _ _ h =>
    Rel.bind (outLoopL_rel hE n 0 h.2.2 rfl (chunksMut_rel _ ho)) fun _ _ h => Rel.pure (Sha3.flatten_len h)

end Hashes.Skein
