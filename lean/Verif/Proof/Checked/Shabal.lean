import Verif.Proof.Rust
import Verif.Proof.BlockBuffer
import Verif.Checked.Shabal
/- The checked transcription of Shabal never panics and agrees with the model. -/
namespace Hashes.Shabal
open Rs

/-- The arrays of a state. -/
def State.toC (s : State) : StateC := ⟨s.a.toList, s.b.toList, s.c.toList, s.w⟩

theorem addMC_eq (s : State) (m : Arr 32 16) : addMC s.toC m.toList = some (addM s m).toC :=
  bind_ok (modify_arr (fun i v => v + m.get i) fun _ _ hi hl e => bind_ok e <| bind_ok (idx_arr m hi) (upd_lt (by omega))) rfl

theorem subMC_eq (s : State) (m : Arr 32 16) : subMC s.toC m.toList = some (subM s m).toC :=
  bind_ok (modify_arr (fun i v => v - m.get i) fun _ _ hi hl e => bind_ok e <| bind_ok (idx_arr m hi) (upd_lt (by omega))) rfl

theorem xorWC_eq (s : State) : xorWC s.toC = some (xorW s).toC :=
  bind_ok (idx_arr s.a (by decide)) <| bind_ok (upd_arr s.a _ (by decide)) <| bind_ok (idx_arr _ (by decide)) <|
    bind_ok (shr_lt (by decide)) <| bind_ok (upd_arr _ _ (by decide)) rfl

theorem permEltC_eq (s : State) {xa0 xa1 xb0 xb1 xb2 xb3 xc0 : Nat} (xm : W32) (h1 : xa0 < 12) (h2 : xa1 < 12) (h3 : xb0 < 16)
    (h4 : xb1 < 16) (h5 : xb2 < 16) (h6 : xb3 < 16) (h7 : xc0 < 16) :
    permEltC s.toC xa0 xa1 xb0 xb1 xb2 xb3 xc0 xm = some (permElt s xa0 xa1 xb0 xb1 xb2 xb3 xc0 xm).toC :=
  bind_ok (idx_arr s.c h7) <| bind_ok (idx_arr s.a h2) <| bind_ok (idx_arr s.a h1) <| bind_ok (idx_arr s.b h4) <|
    bind_ok (idx_arr s.b h5) <| bind_ok (idx_arr s.b h6) <| bind_ok (upd_arr s.a _ h1) <| bind_ok (idx_arr s.b h3) <|
    bind_ok (idx_arr _ h1) <| bind_ok (upd_arr s.b _ h3) rfl

theorem permTable_ok : ∀ r ∈ permTable, r.getD 0 0 < 12 ∧ r.getD 1 0 < 12 ∧ r.getD 2 0 < 16 ∧ r.getD 3 0 < 16 ∧ r.getD 4 0 < 16 ∧
    r.getD 5 0 < 16 ∧ r.getD 6 0 < 16 ∧ r.getD 7 0 < 16 := by decide +kernel

theorem permBlocksC_eq (s : State) (m : Arr 32 16) : permBlocksC s.toC m.toList = some (permBlocks s m).toC := by
  rw [permBlocksC, permBlocks]
  have h := permTable_ok
  generalize permTable = l at h
  induction l generalizing s with
  | nil => rfl
  | cons r l ih =>
    obtain ⟨h1, h2, h3, h4, h5, h6, h7, h8⟩ := h r List.mem_cons_self
    rw [List.foldlM_cons, List.foldl_cons]
    exact bind_ok (bind_ok (idx_arr m h8) (permEltC_eq s _ h1 h2 h3 h4 h5 h6 h7)) (ih _ fun r hr => h r (List.mem_cons_of_mem _ hr))

theorem addTable_ok : ∀ i < 12, (addTable.getD i (0, 0, 0)).1 < 16 ∧ (addTable.getD i (0, 0, 0)).2.1 < 16 ∧
    (addTable.getD i (0, 0, 0)).2.2 < 16 := by decide

theorem map_arr {w n : Nat} (a : Arr w n) (f : BitVec w → BitVec w) : a.toList.map f = (Arr.ofFn n fun i => f (a.get i)).toList := by
  obtain ⟨l, rfl⟩ := a
  refine ext_getD 0 (by simp [Arr.toList, Arr.ofFn]) fun i hi => ?_
  have hi : i < l.length := by simpa [Arr.toList] using hi
  simp [Arr.toList, Arr.ofFn, Arr.get, List.getD, hi]

theorem permC_eq (s : State) (m : Arr 32 16) : permC s.toC m.toList = some (perm s m).toC := by
  have e : ({ s.toC with b := s.toC.b.map fun x => x.rotateLeft 17 } : StateC) =
      ({ s with b := Arr.ofFn 16 fun i => (s.b.get i).rotateLeft 17 } : State).toC := by
    show StateC.mk s.a.toList (s.b.toList.map fun x => x.rotateLeft 17) s.c.toList s.w = _
    rw [map_arr]
    rfl
  refine bind_ok ((congrArg (permBlocksC · m.toList) e).trans (permBlocksC_eq _ m)) ?_
  rw [perm]
  generalize permBlocks _ m = s
  exact bind_ok (modify_arr (fun i v => v + (s.c.get (addTable.getD i (0, 0, 0)).1 + s.c.get (addTable.getD i (0, 0, 0)).2.1 +
      s.c.get (addTable.getD i (0, 0, 0)).2.2)) fun i _ hi hl e => bind_ok e <| bind_ok (idx_arr s.c (addTable_ok i hi).1) <|
      bind_ok (idx_arr s.c (addTable_ok i hi).2.1) <| bind_ok (idx_arr s.c (addTable_ok i hi).2.2) (upd_lt (by omega))) rfl

theorem readMC_eq {b : Bytes} (h : b.length = 64) : readMC b = some (readM b).toList :=
  load_le (w := 32) (n := 16) (by decide) (by simp) h

theorem compressC_eq (s : State) {block : Bytes} (h : block.length = 64) : compressC s.toC block = some (compress s block).toC := by
  refine bind_ok (readMC_eq h) <| bind_ok (addMC_eq ..) <| bind_ok (xorWC_eq _) <| bind_ok (permC_eq ..) <| bind_ok (subMC_eq ..) ?_
  rw [compress]
  generalize subM _ _ = s
  rfl

theorem finalizeC_eq (s : State) {buffer : BlockBuffer} (hw : buffer.WF .eager 64) {out : Bytes} (ho : out.length = 64) :
    finalizeC s.toC buffer out = some (finalizeFull s buffer) := by
  have hp : buffer.pos < 64 := hw.2
  have hl : (buffer.padWithZeros 64).1.length = 64 := by
    simp [BlockBuffer.padWithZeros, hw.1]; omega
  have e (m : Arr 32 16) (s : State) : ∀ k, (loop k s.toC fun s _ => do
      let s ← xorWC (swapBCC s)
      permC s m.toList) = some ((List.range k).foldl (fun s _ => perm (xorW (swapBC s)) m) s).toC := by
    intro k
    induction k with
    | zero => rfl
    | succ k ih =>
      rw [loop_succ, ih, List.range_succ, List.foldl_append]
      generalize (List.range k).foldl (fun s _ => perm (xorW (swapBC s)) m) s = s
      exact bind_ok (m := some s.toC) rfl <| bind_ok (xorWC_eq (swapBC s)) (permC_eq _ m)
  refine bind_ok (upd_lt (by omega)) <| bind_ok (readMC_eq (by simpa using hl)) <| bind_ok (addMC_eq ..) <| bind_ok (xorWC_eq _) <|
    bind_ok (permC_eq ..) <| bind_ok (e _ _ 3) ?_
  rw [finalizeFull]
  generalize (List.range 3).foldl _ _ = s
  exact store_eq (n := 16) (by decide) s.b.2 ho fun x => by simp

end Hashes.Shabal
