import Verif.Leak.Keccak
import Verif.Proof.Sponge
import Verif.Proof.Leak.Basic
/- sha3: forgetting the observations, and equal observations. -/
namespace Hashes.Sha3
open Leak

theorem xorLanesL_val (l : List Bytes) (s : Lanes) : (xorLanesL l s).val = xorLanesC l s := by
  induction l generalizing s with
  | nil => simp only [xorLanesL, xorLanesC, val_pure]
  | cons b l ih => cases s with
    | nil => simp only [xorLanesL, xorLanesC, val_pure]
    | cons a s => simp only [xorLanesL, xorLanesC, val_bind, val_fromLe, ih, val_pure]; rfl
theorem absorbBlockL_val (f : Lanes → Lanes) (s : Lanes) (block : Bytes) : (absorbBlockL f s block).val = absorbBlockC f s block := by
  simp only [absorbBlockL, absorbBlockC, val_bind, val_check, xorLanesL_val, val_pure]; rfl
theorem asBytesLoopL_val (l : List Bytes) (s : Lanes) : (asBytesLoopL l s).val = asBytesLoopC l s := by
  induction l generalizing s with
  | nil => simp only [asBytesLoopL, asBytesLoopC, val_pure]
  | cons b l ih => cases s with
    | nil => simp only [asBytesLoopL, asBytesLoopC, val_pure]
    | cons a s => simp only [asBytesLoopL, asBytesLoopC, val_bind, val_slice, val_copy, ih, val_pure]; rfl
theorem asBytesL_val (s : Lanes) (out : Bytes) : (asBytesL s out).val = asBytesC s out := by
  simp only [asBytesL, asBytesC, val_bind, asBytesLoopL_val, val_pure]; rfl
theorem lastBlockL_val (bs : Nat) (buffer : BlockBuffer) (pad : Byte) : (lastBlockL bs buffer pad).val = lastBlockC bs buffer pad := by
  simp only [lastBlockL, lastBlockC, val_bind, val_upd, val_usub, val_idx]
theorem finalizeL_val (f : Lanes → Lanes) (rate : Nat) (pad : Byte) (s : Lanes) (buffer : BlockBuffer) (out : Bytes) :
    (finalizeL f rate pad s buffer out).val = finalizeC f rate pad s buffer out := by
  simp only [finalizeL, finalizeC, val_bind, lastBlockL_val, absorbBlockL_val, asBytesL_val]
theorem finalizeXofL_val (f : Lanes → Lanes) (rate : Nat) (pad : Byte) (s : Lanes) (buffer : BlockBuffer) :
    (finalizeXofL f rate pad s buffer).val = finalizeXofC f rate pad s buffer := by
  simp only [finalizeXofL, finalizeXofC, val_bind, lastBlockL_val, absorbBlockL_val]
theorem readBlockL_val (f : Lanes → Lanes) (rate : Nat) (s : Lanes) : (readBlockL f rate s).val = readBlockC f rate s := by
  simp only [readBlockL, readBlockC, val_bind, asBytesL_val, val_pure]; rfl

theorem xorLanesL_rel {l l' : List Bytes} {s s' : Lanes} (hl : Each Len l l') (hs : Len s s') :
    Rel (fun r r' => r.length = s.length ∧ r'.length = s'.length) (xorLanesL l s) (xorLanesL l' s') := by
  induction hl generalizing s s' with
  | nil => simp only [xorLanesL]; exact Rel.pure ⟨rfl, rfl⟩
  | cons h _ ih => cases s with
    | nil => cases s' with
      | nil => simp only [xorLanesL]; exact Rel.pure ⟨rfl, rfl⟩
      | cons => cases hs
    | cons a s => cases s' with
      | nil => cases hs
      | cons a' s' =>
        simp only [xorLanesL]
        exact Rel.bind (Rel.fromLe h) fun _ _ _ => Rel.bind (ih (Nat.succ.inj hs)) fun _ _ h => Rel.pure ⟨congrArg (· + 1) h.1, congrArg (· + 1) h.2⟩
theorem asBytesLoopL_rel {l l' : List Bytes} {s s' : Lanes} (hl : Each Len l l') (hs : Len s s') :
    Rel (Each Len) (asBytesLoopL l s) (asBytesLoopL l' s') := by
  induction hl generalizing s s' with
  | nil => simp only [asBytesLoopL]; exact Rel.pure .nil
  | cons h t ih => cases s with
    | nil => cases s' with
      | nil => simp only [asBytesLoopL]; exact Rel.pure (.cons h t)
      | cons => cases hs
    | cons a s => cases s' with
      | nil => cases hs
      | cons a' s' =>
        simp only [asBytesLoopL]
        exact Rel.bind (Rel.slice (by rw [Len, length_leBytes, length_leBytes]) rfl h) fun _ _ hy => Rel.bind (Rel.copy h rfl h hy) fun _ _ ho =>
          Rel.bind (ih (Nat.succ.inj hs)) fun _ _ hr => Rel.pure (.cons ho hr)
theorem chunksMut8_rel {a b : Bytes} (h : Len a b) : Each Len (chunksMut8 a) (chunksMut8 b) := by
  rw [chunksMut8, chunksMut8, ← show a.length = b.length from h]
  generalize List.range _ = l
  induction l with
  | nil => exact .nil
  | cons i l ih => exact .cons (by simp [Len, show a.length = b.length from h]) ih
theorem flatten_len {α : Type} {l l' : List (List α)} (h : Each Len l l') : Len l.flatten l'.flatten := by
  induction h with
  | nil => rfl
  | cons h _ ih => simp only [Len, List.flatten_cons, List.length_append] at *; omega
theorem asBytesL_rel {s s' : Lanes} {out out' : Bytes} (hs : Len s s') (ho : Len out out') : Rel Len (asBytesL s out) (asBytesL s' out') :=
  Rel.bind (asBytesLoopL_rel (chunksMut8_rel ho) hs) fun _ _ h => Rel.pure (flatten_len h)

/-- Two states of 25 words. -/
def Both (s s' : Lanes) : Prop := s.length = 25 ∧ s'.length = 25
theorem Both.len {s s' : Lanes} (h : Both s s') : Len s s' := h.1.trans h.2.symm

variable {f : Lanes → Lanes} (hf : Perm f)
include hf

theorem absorbBlockL_rel {s s' : Lanes} {b b' : Bytes} (hs : Both s s') (hb : Len b b') : Rel Both (absorbBlockL f s b) (absorbBlockL f s' b') :=
  Rel.bind (Rel.check (by rw [show b.length = b'.length from hb])) fun _ _ _ =>
    Rel.bind (xorLanesL_rel (Rel.each_chunks hb) hs.len) fun _ _ h => Rel.pure ⟨hf _ (h.1.trans hs.1), hf _ (h.2.trans hs.2)⟩
omit hf in
theorem lastBlockL_rel (bs : Nat) {b b' : BlockBuffer} (pad : Byte) (hp : b.pos = b'.pos)
    (hd : Len (b.padWithZeros bs).1 (b'.padWithZeros bs).1) : Rel Len (lastBlockL bs b pad) (lastBlockL bs b' pad) := by
  unfold lastBlockL
  refine Rel.bind (Rel.upd hd hp) fun x y h => ?_
  refine Rel.bind (Rel.usub h rfl) fun i j e => ?_
  subst e
  leak
theorem finalizeL_rel (rate : Nat) (pad : Byte) {s s' : Lanes} {b b' : BlockBuffer} {out out' : Bytes} (hs : Both s s') (hp : b.pos = b'.pos)
    (hd : Len (b.padWithZeros rate).1 (b'.padWithZeros rate).1) (ho : Len out out') :
    Rel Len (finalizeL f rate pad s b out) (finalizeL f rate pad s' b' out') :=
  Rel.bind (lastBlockL_rel rate pad hp hd) fun _ _ h => Rel.bind (absorbBlockL_rel hf hs h) fun _ _ h => asBytesL_rel h.len ho
theorem finalizeXofL_rel (rate : Nat) (pad : Byte) {s s' : Lanes} {b b' : BlockBuffer} (hs : Both s s') (hp : b.pos = b'.pos)
    (hd : Len (b.padWithZeros rate).1 (b'.padWithZeros rate).1) : Rel Both (finalizeXofL f rate pad s b) (finalizeXofL f rate pad s' b') :=
  Rel.bind (lastBlockL_rel rate pad hp hd) fun _ _ h => absorbBlockL_rel hf hs h
theorem readBlockL_rel (rate : Nat) {s s' : Lanes} (hs : Both s s') :
    Rel (fun r r' => Len r.1 r'.1 ∧ Both r.2 r'.2) (readBlockL f rate s) (readBlockL f rate s') :=
  Rel.bind (asBytesL_rel hs.len rfl) fun _ _ h => Rel.pure ⟨h, hf _ hs.1, hf _ hs.2⟩

end Hashes.Sha3
