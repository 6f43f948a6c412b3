import Verif.Leak.Riscv
import Verif.Proof.Leak.Simd
/- SHA-2 with the Zknh instructions: forgetting the observations, and equal observations whatever the memory holds. -/
namespace Hashes.Sha2Riscv
open Riscv Leak Raw

@[simp] theorem asmLoadL_val (k p n a : Nat) : (asmLoadL k p n a).val = asmLoad k p n a := rfl
@[simp] theorem bpAddL_val (st : Bool) (r : Raw.Region) (bp n : Nat) : (bpAddL st r bp n).val = bpAdd st r bp n := rfl
theorem loadAlignedL_val {w : Nat} (n : Nat) (fin : BitVec w → BitVec w) (m : Mem) (r : Raw.Region) (p : Nat) :
    (loadAlignedL n fin m r p).val = loadAlignedChk n fin m r p := by
  simp only [loadAlignedL, loadAlignedChk, val_bind, val_check, val_loop, addL_val, derefL_val, val_upd]
theorem loadUnalignedL_val {w : Nat} (st : Bool) (xlen n : Nat) (fin : BitVec w → BitVec w) (m : Mem) (r : Raw.Region) (p : Nat) :
    (loadUnalignedL st xlen n fin m r p).val = loadUnalignedChk st xlen n fin m r p := by
  simp only [loadUnalignedL, loadUnalignedChk, val_bind, val_check, val_loop, asmLoadL_val, bpAddL_val, derefL_val, val_upd, val_usub, val_shl, val_shr, val_pure]; rfl
theorem loadL_val {w : Nat} (st : Bool) (xlen n : Nat) (fin : BitVec w → BitVec w) (m : Mem) (r : Raw.Region) (p : Nat) :
    (loadL st xlen n fin m r p).val = loadChk st xlen n fin m r p := by
  simp only [loadL, loadChk, val_branch, loadAlignedL_val, loadUnalignedL_val]
theorem joinL_val (b : List W32) : (joinL b).val = joinChk b := by
  simp only [joinL, joinChk, val_loop, val_bind, val_idx, val_upd]
theorem loadBlock32L_val (st : Bool) (xlen : Nat) (m : Mem) (r : Raw.Region) (p : Nat) : (loadBlock32L st xlen m r p).val = loadBlock32Chk st xlen m r p :=
  loadL_val ..
theorem loadBlock64L_val (st : Bool) (m : Mem) (r : Raw.Region) (p : Nat) : (loadBlock64L st m r p).val = loadBlock64Chk st m r p := loadL_val ..
theorem loadBlock64L'_val (st : Bool) (m : Mem) (r : Raw.Region) (p : Nat) : (loadBlock64L' st m r p).val = loadBlock64Chk' st m r p := by
  simp only [loadBlock64L', loadBlock64Chk', val_bind, loadL_val, joinL_val]
theorem opaqueLoadL_val {w : Nat} (o : Ops w) (k : List (BitVec w)) (R : Nat) : (opaqueLoadL o k R).val = opaqueLoad o k R := by
  simp only [opaqueLoadL, opaqueLoad, val_bind, val_check, derefL_val, val_pure]; rfl
theorem roundL_val {w : Nat} (o : Ops w) (s : List (BitVec w)) (r : Nat) (k m : Leak (BitVec w)) : (roundL o s r k m).val = roundChk o s r k.val m.val := by
  simp only [roundL, roundChk, val_bind, val_usub, val_idx, val_upd]
theorem roundUL_val {w : Nat} (o : Ops w) (k b s : List (BitVec w)) (R : Nat) : (roundUL o k b s R).val = roundUChk o k b s R := by
  simp only [roundUL, roundUChk, roundL_val, opaqueLoadL_val, val_idx]
theorem scheduleL_val {w : Nat} (o : Ops w) (b : List (BitVec w)) (r : Nat) : (scheduleL o b r).val = scheduleChk o b r := by
  simp only [scheduleL, scheduleChk, val_bind, val_idx, val_upd]
theorem addStateL_val {w : Nat} (s t : List (BitVec w)) : (addStateL s t).val = addStateChk s t := by
  simp only [addStateL, addStateChk, val_loop, val_bind, val_idx, val_upd]
theorem compressBlockUL_val {w : Nat} (o : Ops w) (s b : List (BitVec w)) : (compressBlockUL o s b).val = compressBlockUChk o s b := by
  simp only [compressBlockUL, compressBlockUChk, val_loop, val_bind, val_slice, roundUL_val, scheduleL_val, addStateL_val, val_pure]; rfl
theorem scheduleIfL_val {w : Nat} (o : Ops w) (b : List (BitVec w)) (r : Nat) : (scheduleIfL o b r).val = scheduleIfChk o b r := by
  simp only [scheduleIfL, scheduleIfChk, val_branch, scheduleL_val, val_pure]
theorem compressBlockCL_val {w : Nat} (o : Ops w) (s b : List (BitVec w)) : (compressBlockCL o s b).val = compressBlockCChk o s b := by
  simp only [compressBlockCL, compressBlockCChk, val_loop, val_bind, roundL_val, scheduleIfL_val, addStateL_val, val_idx, val_pure]; rfl

/-! Equal observations. -/

theorem loadAlignedL_rel {w : Nat} (n : Nat) (fin : BitVec w → BitVec w) (m m' : Mem) (r : Raw.Region) (p : Nat) :
    Rel Len (loadAlignedL n fin m r p) (loadAlignedL n fin m' r p) := by
  refine Rel.bind (Rel.refl _) fun _ _ _ => Rel.loop rfl rfl fun _ _ _ h => ?_
  refine Rel.bind (Rel.refl _) fun q q' e => ?_
  cases e
  exact Rel.bind (Rel.refl _) fun _ _ _ => Rel.upd h rfl
theorem loadUnalignedL_rel {w : Nat} (st : Bool) (xlen n : Nat) (fin : BitVec w → BitVec w) (m m' : Mem) (r : Raw.Region) (p : Nat) :
    Rel Len (loadUnalignedL st xlen n fin m r p) (loadUnalignedL st xlen n fin m' r p) := by
  refine Rel.bind (Rel.refl _) fun _ _ _ => ?_
  refine Rel.bind (Rel.refl _) fun off2 _ e => ?_
  cases e
  refine Rel.bind (Rel.refl _) fun _ _ _ => ?_
  refine Rel.bind (Rel.refl _) fun n1 _ e => ?_
  cases e
  refine Rel.bind (R := fun x y : BitVec w × List (BitVec w) => Len x.2 y.2) (Rel.loop (R := fun x y : BitVec w × List (BitVec w) => Len x.2 y.2) rfl (show Len (List.replicate n 0) (List.replicate n 0) from rfl) fun _ _ _ h => ?_) fun x y h => ?_
  · refine Rel.bind (Rel.refl _) fun q q' e => ?_
    cases e
    refine Rel.bind (Rel.refl _) fun _ _ _ => ?_
    refine Rel.bind (Rel.shl rfl) fun _ _ _ => ?_
    refine Rel.bind (Rel.upd h rfl) fun _ _ h => ?_
    exact Rel.bind (Rel.shr rfl) fun _ _ _ => Rel.pure h
  · exact Rel.bind (Rel.refl _) fun _ _ _ => Rel.upd h rfl
theorem loadL_rel {w : Nat} (st : Bool) (xlen n : Nat) (fin : BitVec w → BitVec w) (m m' : Mem) (r : Raw.Region) (p : Nat) :
    Rel Len (loadL st xlen n fin m r p) (loadL st xlen n fin m' r p) :=
  Rel.branch Iff.rfl (loadAlignedL_rel n fin m m' r p) (loadUnalignedL_rel st xlen n fin m m' r p)
theorem joinL_rel {b b' : List W32} (h : Len b b') : Rel Len (joinL b) (joinL b') :=
  Rel.loop rfl rfl fun _ _ _ hr => Rel.bind (Rel.idx h rfl) fun _ _ _ => Rel.bind (Rel.idx h rfl) fun _ _ _ => Rel.upd hr rfl
theorem loadBlock64L'_rel (st : Bool) (m m' : Mem) (r : Raw.Region) (p : Nat) : Rel Len (loadBlock64L' st m r p) (loadBlock64L' st m' r p) :=
  Rel.bind (loadL_rel st 32 32 id m m' r p) fun _ _ h => joinL_rel h
theorem roundL_rel {w : Nat} (o : Ops w) {s s' : List (BitVec w)} (h : Len s s') (r : Nat) {k k' m m' : Leak (BitVec w)} (hk : Rel Any k k') (hm : Rel Any m m') :
    Rel Len (roundL o s r k m) (roundL o s' r k' m') := by
  refine Rel.bind (Rel.refl _) fun n _ e => ?_
  cases e
  iterate 4 refine Rel.bind (Rel.idx h rfl) fun _ _ _ => ?_
  refine Rel.bind hk fun _ _ _ => Rel.bind hm fun _ _ _ => Rel.bind (Rel.upd h rfl) fun _ _ h => ?_
  iterate 2 refine Rel.bind (Rel.idx h rfl) fun _ _ _ => ?_
  refine Rel.bind (Rel.upd h rfl) fun _ _ h => ?_
  iterate 4 refine Rel.bind (Rel.idx h rfl) fun _ _ _ => ?_
  exact Rel.upd h rfl
theorem roundUL_rel {w : Nat} (o : Ops w) (k : List (BitVec w)) {b b' s s' : List (BitVec w)} (hb : Len b b') (hs : Len s s') (R : Nat) :
    Rel Len (roundUL o k b s R) (roundUL o k b' s' R) := roundL_rel o hs R ((Rel.refl _).mono fun _ _ _ => trivial) (Rel.idx hb rfl)
theorem scheduleL_rel {w : Nat} (o : Ops w) {b b' : List (BitVec w)} (h : Len b b') (r : Nat) : Rel Len (scheduleL o b r) (scheduleL o b' r) := by
  unfold scheduleL
  iterate 4 refine Rel.bind (Rel.idx h rfl) fun _ _ _ => ?_
  exact Rel.upd h rfl
theorem addStateL_rel {w : Nat} {s s' t t' : List (BitVec w)} (hs : Len s s') (ht : Len t t') : Rel Len (addStateL s t) (addStateL s' t') :=
  Rel.loop rfl hs fun _ _ _ h => Rel.bind (Rel.idx h rfl) fun _ _ _ => Rel.bind (Rel.idx ht rfl) fun _ _ _ => Rel.upd h rfl
theorem compressBlockUL_rel {w : Nat} (o : Ops w) {s s' b b' : List (BitVec w)} (hs : Len s s') (hb : Len b b') :
    Rel Len (compressBlockUL o s b) (compressBlockUL o s' b') := by
  refine Rel.bind (R := fun x y => Len x.1 y.1 ∧ Len x.2 y.2) (Rel.loop rfl ⟨hs, hb⟩ fun x y i h => ?_) fun x y h => ?_
  · refine Rel.bind (Rel.refl _) fun k _ e => ?_
    cases e
    refine Rel.loop rfl h fun x y R h => ?_
    exact Rel.bind (roundUL_rel o k h.2 h.1 R) fun _ _ h1 => Rel.bind (scheduleL_rel o h.2 R) fun _ _ h2 => Rel.pure ⟨h1, h2⟩
  · refine Rel.bind (Rel.refl _) fun k _ e => ?_
    cases e
    exact Rel.bind (Rel.loop rfl h.1 fun _ _ R h1 => roundUL_rel o k h.2 h1 R) fun _ _ ht => addStateL_rel hs ht
theorem scheduleIfL_rel {w : Nat} (o : Ops w) {b b' : List (BitVec w)} (h : Len b b') (r : Nat) : Rel Len (scheduleIfL o b r) (scheduleIfL o b' r) :=
  Rel.branch Iff.rfl (scheduleL_rel o h r) (Rel.pure h)
theorem compressBlockCL_rel {w : Nat} (o : Ops w) {s s' b b' : List (BitVec w)} (hs : Len s s') (hb : Len b b') :
    Rel Len (compressBlockCL o s b) (compressBlockCL o s' b') := by
  refine Rel.bind (R := fun x y => Len x.1 y.1 ∧ Len x.2 y.2) (Rel.loop rfl ⟨hs, hb⟩ fun x y r h => ?_) fun x y h => addStateL_rel hs h.1
  exact Rel.bind (roundL_rel o h.1 r ((Rel.refl _).mono fun _ _ _ => trivial) (Rel.idx h.2 rfl)) fun _ _ h1 =>
    Rel.bind (scheduleIfL_rel o h.2 r) fun _ _ h2 => Rel.pure ⟨h1, h2⟩
theorem compressL_rel {w : Nat} (bytes : Nat) {load : Mem → Raw.Region → Nat → Leak (List (BitVec w))}
    {f : List (BitVec w) → List (BitVec w) → Leak (List (BitVec w))} (m m' : Mem) (r : Raw.Region) (p n : Nat)
    (hl : ∀ p, Rel Len (load m r p) (load m' r p)) (hf : ∀ s s' b b', Len s s' → Len b b' → Rel Len (f s b) (f s' b'))
    {s s' : List (BitVec w)} (hs : Len s s') : Rel Len (compressL bytes load f m r p n s) (compressL bytes load f m' r p n s') :=
  Rel.loop rfl hs fun _ _ _ h => Rel.bind (hl _) fun _ _ hb => hf _ _ _ _ h hb

section
variable (m m' : Mem) (r : Raw.Region) (p n : Nat) (st : Bool)
theorem zknh256L_val (xlen : Nat) (s : List W32) : (zknh256L m r p n st xlen s).val = zknh256 m r p n st xlen s := by
  simp only [zknh256L, zknh256, compressL, compressChk, val_loop, val_bind, loadBlock32L_val, compressBlockUL_val]
theorem zknh256CompactL_val (xlen : Nat) (s : List W32) : (zknh256CompactL m r p n st xlen s).val = zknh256Compact m r p n st xlen s := by
  simp only [zknh256CompactL, zknh256Compact, compressL, compressChk, val_loop, val_bind, loadBlock32L_val, compressBlockCL_val]
theorem zknh512L_val (s : List W64) : (zknh512L m r p n st s).val = zknh512 m r p n st s := by
  simp only [zknh512L, zknh512, compressL, compressChk, val_loop, val_bind, loadBlock64L_val, compressBlockUL_val]
theorem zknh512CompactL_val (s : List W64) : (zknh512CompactL m r p n st s).val = zknh512Compact m r p n st s := by
  simp only [zknh512CompactL, zknh512Compact, compressL, compressChk, val_loop, val_bind, loadBlock64L_val, compressBlockCL_val]
theorem zknh512L'_val (s : List W64) : (zknh512L' m r p n st s).val = zknh512' m r p n st s := by
  simp only [zknh512L', zknh512', compressL, compressChk, val_loop, val_bind, loadBlock64L'_val, compressBlockUL_val]
theorem zknh512CompactL'_val (s : List W64) : (zknh512CompactL' m r p n st s).val = zknh512Compact' m r p n st s := by
  simp only [zknh512CompactL', zknh512Compact', compressL, compressChk, val_loop, val_bind, loadBlock64L'_val, compressBlockCL_val]
end

end Hashes.Sha2Riscv
