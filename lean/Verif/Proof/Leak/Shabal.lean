import Verif.Leak.Shabal
import Verif.Proof.Leak.Basic
/- Shabal: forgetting the observations, and equal observations. -/
namespace Hashes.Shabal
open Leak

theorem addML_val (s : StateC) (m : List W32) : (addML s m).val = addMC s m := by
  simp only [addML, addMC, val_bind, val_loop, val_idx, val_upd, val_pure]; rfl
theorem subML_val (s : StateC) (m : List W32) : (subML s m).val = subMC s m := by
  simp only [subML, subMC, val_bind, val_loop, val_idx, val_upd, val_pure]; rfl
theorem xorWL_val (s : StateC) : (xorWL s).val = xorWC s := by
  simp only [xorWL, xorWC, val_bind, val_idx, val_upd, val_shr, val_pure]; rfl
theorem permEltL_val (s : StateC) (a b c d e f g : Nat) (xm : W32) : (permEltL s a b c d e f g xm).val = permEltC s a b c d e f g xm := by
  simp only [permEltL, permEltC, val_bind, val_idx, val_upd, val_pure]; rfl
theorem permBlocksL_val (s : StateC) (m : List W32) : (permBlocksL s m).val = permBlocksC s m := by
  simp only [permBlocksL, permBlocksC, val_bind, val_foldlM, val_idx, permEltL_val]
theorem permL_val (s : StateC) (m : List W32) : (permL s m).val = permC s m := by
  simp only [permL, permC, val_bind, val_loop, val_idx, val_upd, val_pure, permBlocksL_val]; rfl
theorem readML_val (b : Bytes) : (readML b).val = readMC b := by
  simp only [readML, readMC, val_load, val_fromLe]
theorem compressL_val (s : StateC) (block : Bytes) : (compressL s block).val = compressC s block := by
  simp only [compressL, compressC, val_bind, val_pure, readML_val, addML_val, xorWL_val, permL_val, subML_val]; rfl
theorem finalizeL_val (s : StateC) (buffer : BlockBuffer) (out : Bytes) : (finalizeL s buffer out).val = finalizeC s buffer out := by
  simp only [finalizeL, finalizeC, val_bind, val_upd, val_loop, val_store, readML_val, addML_val, xorWL_val, permL_val]

/-- States of the same shape. -/
def Same (s t : StateC) : Prop := s.a.length = t.a.length ∧ s.b.length = t.b.length ∧ s.c.length = t.c.length

theorem addML_rel {s t : StateC} {m n : List W32} (h : Same s t) (hm : Len m n) : Rel Same (addML s m) (addML t n) := by
  obtain ⟨ha, hb, hc⟩ := h
  refine Rel.bind (R := Len) (Rel.loop rfl hb ?_) fun _ _ h => Rel.pure ⟨ha, h, hc⟩
  leak
theorem subML_rel {s t : StateC} {m n : List W32} (h : Same s t) (hm : Len m n) : Rel Same (subML s m) (subML t n) := by
  obtain ⟨ha, hb, hc⟩ := h
  refine Rel.bind (R := Len) (Rel.loop rfl hc ?_) fun _ _ h => Rel.pure ⟨ha, hb, h⟩
  leak
theorem xorWL_rel {s t : StateC} (h : Same s t) : Rel Same (xorWL s) (xorWL t) := by
  obtain ⟨ha, hb, hc⟩ := h
  replace ha : Len s.a t.a := ha
  exact Rel.bind (Rel.idx ha rfl) fun _ _ _ => Rel.bind (Rel.upd ha rfl) fun _ _ h => Rel.bind (Rel.idx h rfl) fun _ _ _ =>
    Rel.bind (Rel.shr rfl) fun _ _ _ => Rel.bind (Rel.upd h rfl) fun _ _ h => Rel.pure ⟨h, hb, hc⟩
theorem permEltL_rel {s t : StateC} (a b c d e f g : Nat) (x y : W32) (h : Same s t) :
    Rel Same (permEltL s a b c d e f g x) (permEltL t a b c d e f g y) := by
  obtain ⟨ha, hb, hc⟩ := h
  replace ha : Len s.a t.a := ha
  replace hb : Len s.b t.b := hb
  replace hc : Len s.c t.c := hc
  unfold permEltL
  leak
  exact ⟨by assumption, by assumption, hc⟩
theorem permBlocksL_rel {s t : StateC} {m n : List W32} (h : Same s t) (hm : Len m n) : Rel Same (permBlocksL s m) (permBlocksL t n) :=
  Rel.fold h fun _ _ _ h => Rel.bind (Rel.idx hm rfl) fun _ _ _ => permEltL_rel _ _ _ _ _ _ _ _ _ h
theorem permL_rel {s t : StateC} {m n : List W32} (h : Same s t) (hm : Len m n) : Rel Same (permL s m) (permL t n) := by
  obtain ⟨ha, hb, hc⟩ := h
  refine Rel.bind (permBlocksL_rel ⟨ha, by simpa using hb, hc⟩ hm) ?_
  rintro s t ⟨ha, hb, hc⟩
  replace ha : Len s.a t.a := ha
  replace hc : Len s.c t.c := hc
  refine Rel.bind (R := Len) (Rel.loop rfl ha ?_) fun _ _ h => Rel.pure ⟨h, hb, hc⟩
  leak
theorem readML_rel {b c : Bytes} (h : Len b c) : Rel Len (readML b) (readML c) := by unfold readML; leak
theorem swap_same {s t : StateC} (h : Same s t) : Same (swapBCC s) (swapBCC t) := ⟨h.1, h.2.2, h.2.1⟩
theorem compressL_rel {s t : StateC} {b c : Bytes} (h : Same s t) (hb : Len b c) : Rel Same (compressL s b) (compressL t c) :=
  Rel.bind (readML_rel hb) fun _ _ hm => Rel.bind (addML_rel h hm) fun _ _ h => Rel.bind (xorWL_rel h) fun _ _ h =>
    Rel.bind (permL_rel h hm) fun _ _ h => Rel.bind (subML_rel h hm) fun _ _ h => Rel.pure (swap_same h)
/-- The position in the buffer is not secret, its contents are. -/
theorem finalizeL_rel {s t : StateC} {b c : BlockBuffer} {out out' : Bytes} (h : Same s t) (hp : b.pos = c.pos)
    (hd : Len (b.padWithZeros 64).1 (c.padWithZeros 64).1) (ho : Len out out') : Rel Len (finalizeL s b out) (finalizeL t c out') :=
  Rel.bind (Rel.upd hd hp) fun _ _ hb =>
  Rel.bind (readML_rel hb) fun _ _ hm => Rel.bind (addML_rel h hm) fun _ _ h => Rel.bind (xorWL_rel h) fun _ _ h =>
    Rel.bind (permL_rel h hm) fun _ _ h => Rel.bind (Rel.loop rfl h fun _ _ _ h => Rel.bind (xorWL_rel (swap_same h)) fun _ _ h => permL_rel h hm)
      fun _ _ h => Rel.store ho h.2.1 fun _ _ => by rw [Len, length_leBytes, length_leBytes]

end Hashes.Shabal
