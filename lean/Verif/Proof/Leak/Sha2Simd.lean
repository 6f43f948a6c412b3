import Verif.Proof.Leak.Simd
/- SHA-2 on wasm and AVX2: forgetting the observations, and equal observations. -/
namespace Hashes.Sha2Simd
open Leak Raw Simd

@[simp] theorem idxAL_val {w n : Nat} (a : Arr w n) (i : Nat) : (idxAL a i).val = idxA a i := rfl
@[simp] theorem updAL_val {w n : Nat} (a : Arr w n) (i : Nat) (v : BitVec w) : (updAL a i v).val = updA a i v := rfl
theorem all8L_val {α : Type} (f : Nat → Leak α) : (all8L f).val = all8 fun i => (f i).val := by
  simp only [all8L, all8, val_bind, val_pure]; rfl
theorem all4L_val {α : Type} (f : Nat → Leak α) : (all4L f).val = all4 fun i => (f i).val := by
  simp only [all4L, all4, val_bind, val_pure]; rfl
theorem wordL_val (w L : Nat) {n : Nat} (ms : Arr 128 n) (i : Nat) : (wordL w L ms i).val = wordC w L ms i := by
  simp only [wordL, wordC, val_bind, idxAL_val, val_pure]; rfl
theorem roundsRegL_val {w n : Nat} (S0 S1 : BitVec w → BitVec w) (L : Nat) (ms : Arr 128 n) (j : Nat) (s : V8 (BitVec w)) :
    (roundsRegL S0 S1 L ms j s).val = roundsRegC S0 S1 L ms j s := by
  simp only [roundsRegL, roundsRegC, val_loop, val_bind, wordL_val, val_pure]; rfl
theorem bodyL_val {w : Nat} {X : Type} (k : Raw.Obj) (o : Ops w X) (v : St w o.L X) (j : Nat) : (bodyL k o v j).val = bodyC k o v j := by
  simp only [bodyL, bodyC, val_bind, Obj.loadAtL_val, roundsRegL_val, updAL_val, val_pure]; rfl
theorem mainLoopL_val {w : Nat} {X : Type} (k : Raw.Obj) (o : Ops w X) (v : St w o.L X) : (mainLoopL k o v).val = mainLoopC k o v := by
  simp only [mainLoopL, mainLoopC, val_loop, bodyL_val]
theorem lastLoopL_val {w n : Nat} (S0 S1 : BitVec w → BitVec w) (L : Nat) (ms : Arr 128 n) (s : V8 (BitVec w)) :
    (lastLoopL S0 S1 L ms s).val = lastLoopC S0 S1 L ms s := by
  simp only [lastLoopL, lastLoopC, val_loop, val_bind, wordL_val, val_pure]; rfl
theorem accumulateL_val {w : Nat} (dst src : V8 (BitVec w)) : (accumulateL dst src).val = accumulateC dst src := by
  simp only [accumulateL, accumulateC, all8L_val, val_bind, val_idx, val_pure]; rfl
theorem blockWithL_val {w : Nat} {X : Type} (k : Raw.Obj) (o : Ops w X) (s : V8 (BitVec w)) (x : X) (ms : Arr 128 (16 / o.L)) :
    (blockWithL k o s x ms).val = blockWithC k o s x ms := by
  simp only [blockWithL, blockWithC, val_bind, mainLoopL_val, lastLoopL_val, accumulateL_val]
theorem wasmBlock512L_val (k : Raw.Obj) (s : V8 W64) (b : Raw.Obj) : (wasmBlock512L k s b).val = wasmBlock512C k s b := by
  simp only [wasmBlock512L, wasmBlock512C, val_bind, all8L_val, Obj.loadAtL_val, val_pure]
  exact bind_congr fun x => bind_congr fun kv => blockWithL_val ..
theorem wasm512L_val (a : Nat) (s : V8 W64) (l : List Raw.Obj) : (wasm512L a s l).val = wasm512C a s l := by
  simp only [wasm512L, wasm512C, val_foldlM, wasmBlock512L_val]
theorem wasmBlock256L_val (k : Raw.Obj) (s : V8 W32) (b : Raw.Obj) : (wasmBlock256L k s b).val = wasmBlock256C k s b := by
  simp only [wasmBlock256L, wasmBlock256C, val_bind, all4L_val, Obj.loadAtL_val, val_pure]
  exact bind_congr fun x => bind_congr fun kv => blockWithL_val ..
theorem wasm256L_val (a : Nat) (s : V8 W32) (l : List Raw.Obj) : (wasm256L a s l).val = wasm256C a s l := by
  simp only [wasm256L, wasm256C, val_foldlM, wasmBlock256L_val]
theorem avxBlockL_val (k : Raw.Obj) (s : V8 W64) (b : Raw.Obj) : (avxBlockL k s b).val = avxBlockC k s b := by
  simp only [avxBlockL, avxBlockC, val_bind, all8L_val, Obj.loadAtL_val, val_pure]
  exact bind_congr fun x => bind_congr fun kv => blockWithL_val ..
theorem body2L_val (k : Raw.Obj) (i : Nat) (v : St2) (j : Nat) : (body2L k i v j).val = body2C k i v j := by
  simp only [body2L, body2C, val_bind, Obj.loadAtL_val, roundsRegL_val, updAL_val, val_pure]; rfl
theorem mainLoop2L_val (k : Raw.Obj) (v : St2) : (mainLoop2L k v).val = mainLoop2C k v := by
  simp only [mainLoop2L, mainLoop2C, val_loop, body2L_val]
theorem fillL_val {n : Nat} (a : Arr 128 n) (f : Nat → V128) : (fillL a f).val = fillC a f := by
  simp only [fillL, fillC, val_loop, updAL_val]
theorem secondL_val (t2 : Arr 128 40) (s : V8 W64) : (secondL t2 s).val = secondC t2 s := by
  simp only [secondL, secondC, val_loop, val_bind, wordL_val, val_pure]; rfl
theorem loadFromL_val (o : Raw.Obj) (p j : Nat) : (loadFromL o p j).val = loadFrom o p j := by
  simp only [loadFromL, loadFrom, val_bind, addL_val, Obj.loaduL_val]
theorem avx2PairL_val (k o : Raw.Obj) (v : V8 W64 × V8 V256 × Arr 128 8 × Arr 128 40) (i : Nat) : (avx2PairL k o v i).val = avx2PairC k o v i := by
  simp only [avx2PairL, avx2PairC, val_bind, all8L_val, addL_val, loadFromL_val, Obj.loadAtL_val, fillL_val, mainLoop2L_val, lastLoopL_val, accumulateL_val,
    secondL_val, val_pure]; rfl
theorem firstL_val (k o : Raw.Obj) (n : Nat) (s : V8 W64) : (firstL k o n s).val = firstC k o n s := by
  simp only [firstL, firstC, val_branch, val_bind, val_check, avxBlockL_val, val_pure]; rfl
theorem avx2L_val (a : Nat) (s : V8 W64) (o : Raw.Obj) (n : Nat) : (avx2L a s o n).val = avx2C a s o n := by
  simp only [avx2L, avx2C, val_bind, firstL_val, val_loop, avx2PairL_val, val_pure]; rfl

/-! Equal observations. -/

theorem idxAL_rel {w n : Nat} (a b : Arr w n) (i : Nat) : Rel Any (idxAL a i) (idxAL b i) := by
  refine Rel.of_emit ?_
  unfold idxA
  split
  · exact .some trivial
  · exact .none
theorem updAL_rel {w n : Nat} (a b : Arr w n) (i : Nat) (v v' : BitVec w) : Rel Any (updAL a i v) (updAL b i v') := by
  refine Rel.of_emit ?_
  unfold updA
  split
  · exact .some trivial
  · exact .none
theorem all8L_rel {α : Type} {f g : Nat → Leak α} (h : ∀ i, Rel Any (f i) (g i)) : Rel Any (all8L f) (all8L g) := by
  unfold all8L
  iterate 8 refine Rel.bind (h _) fun _ _ _ => ?_
  exact Rel.pure trivial
theorem all4L_rel {α : Type} {f g : Nat → Leak α} (h : ∀ i, Rel Any (f i) (g i)) : Rel Any (all4L f) (all4L g) := by
  unfold all4L
  iterate 4 refine Rel.bind (h _) fun _ _ _ => ?_
  exact Rel.pure trivial
theorem wordL_rel (w L : Nat) {n : Nat} (a b : Arr 128 n) (i : Nat) : Rel Any (wordL w L a i) (wordL w L b i) :=
  Rel.bind (idxAL_rel a b _) fun _ _ _ => Rel.pure trivial
theorem roundsRegL_rel {w n : Nat} (S0 S1 : BitVec w → BitVec w) (L : Nat) (a b : Arr 128 n) (j : Nat) (s s' : V8 (BitVec w)) :
    Rel Any (roundsRegL S0 S1 L a j s) (roundsRegL S0 S1 L b j s') :=
  Rel.loop (R := Any) rfl trivial fun _ _ _ _ => Rel.bind (wordL_rel _ _ _ _ _) fun _ _ _ => Rel.pure trivial
theorem bodyL_rel {w : Nat} {X : Type} (k : Raw.Obj) (o : Ops w X) {v v' : St w o.L X} (h : v.idx = v'.idx) (j : Nat) :
    Rel (fun v v' => v.idx = v'.idx) (bodyL k o v j) (bodyL k o v' j) := by
  unfold bodyL
  rw [h]
  refine Rel.bind (Rel.refl _) fun _ _ _ => ?_
  refine Rel.bind (roundsRegL_rel _ _ _ _ _ _ _ _) fun _ _ _ => ?_
  exact Rel.bind (updAL_rel _ _ _ _ _) fun _ _ _ => Rel.pure rfl
theorem mainLoopL_rel {w : Nat} {X : Type} (k : Raw.Obj) (o : Ops w X) {v v' : St w o.L X} (h : v.idx = v'.idx) :
    Rel (fun v v' => v.idx = v'.idx) (mainLoopL k o v) (mainLoopL k o v') :=
  Rel.loop rfl h fun _ _ _ h => Rel.loop rfl h fun _ _ _ h => bodyL_rel k o h _
theorem lastLoopL_rel {w n : Nat} (S0 S1 : BitVec w → BitVec w) (L : Nat) (a b : Arr 128 n) (s s' : V8 (BitVec w)) :
    Rel Any (lastLoopL S0 S1 L a s) (lastLoopL S0 S1 L b s') :=
  Rel.loop (R := Any) rfl trivial fun _ _ _ _ => Rel.bind (wordL_rel _ _ _ _ _) fun _ _ _ => Rel.pure trivial
theorem accumulateL_rel {w : Nat} (a b a' b' : V8 (BitVec w)) : Rel Any (accumulateL a b) (accumulateL a' b') :=
  all8L_rel fun _ => Rel.bind (Rel.idx (show Len a.toList a'.toList from rfl) rfl) fun _ _ _ =>
    Rel.bind (Rel.idx (show Len b.toList b'.toList from rfl) rfl) fun _ _ _ => Rel.pure trivial
theorem blockWithL_rel {w : Nat} {X : Type} (k : Raw.Obj) (o : Ops w X) (s s' : V8 (BitVec w)) (x x' : X) (ms ms' : Arr 128 (16 / o.L)) :
    Rel Any (blockWithL k o s x ms) (blockWithL k o s' x' ms') := by
  refine Rel.bind (mainLoopL_rel k o rfl) fun _ _ _ => ?_
  exact Rel.bind (lastLoopL_rel _ _ _ _ _ _ _) fun _ _ _ => accumulateL_rel _ _ _ _
theorem wasmBlock512L_rel (k : Raw.Obj) (s s' : V8 W64) {b b' : Raw.Obj} (h : SameObj b b') : Rel Any (wasmBlock512L k s b) (wasmBlock512L k s' b') := by
  refine Rel.bind (all8L_rel fun _ => Rel.bind (h.loadAtL _ _) fun _ _ _ => Rel.pure trivial) fun _ _ _ => ?_
  exact Rel.bind (Rel.refl _) fun _ _ _ => blockWithL_rel _ _ _ _ _ _ _ _
theorem wasmBlock256L_rel (k : Raw.Obj) (s s' : V8 W32) {b b' : Raw.Obj} (h : SameObj b b') : Rel Any (wasmBlock256L k s b) (wasmBlock256L k s' b') := by
  refine Rel.bind (all4L_rel fun _ => Rel.bind (h.loadAtL _ _) fun _ _ _ => Rel.pure trivial) fun _ _ _ => ?_
  exact Rel.bind (Rel.refl _) fun _ _ _ => blockWithL_rel _ _ _ _ _ _ _ _
theorem wasm512L_rel (a : Nat) (s s' : V8 W64) {l l' : List Raw.Obj} (h : Each SameObj l l') : Rel Any (wasm512L a s l) (wasm512L a s' l') :=
  Rel.foldlM (R := Any) h trivial fun _ _ _ _ _ h => wasmBlock512L_rel _ _ _ h
theorem wasm256L_rel (a : Nat) (s s' : V8 W32) {l l' : List Raw.Obj} (h : Each SameObj l l') : Rel Any (wasm256L a s l) (wasm256L a s' l') :=
  Rel.foldlM (R := Any) h trivial fun _ _ _ _ _ h => wasmBlock256L_rel _ _ _ h
theorem avxBlockL_rel (k : Raw.Obj) (s s' : V8 W64) {b b' : Raw.Obj} (h : SameObj b b') : Rel Any (avxBlockL k s b) (avxBlockL k s' b') := by
  refine Rel.bind (all8L_rel fun _ => Rel.bind (h.loadAtL _ _) fun _ _ _ => Rel.pure trivial) fun _ _ _ => ?_
  exact Rel.bind (Rel.refl _) fun _ _ _ => blockWithL_rel _ _ _ _ _ _ _ _
theorem body2L_rel (k : Raw.Obj) (i : Nat) {v v' : St2} (h : v.idx = v'.idx) (j : Nat) :
    Rel (fun v v' => v.idx = v'.idx) (body2L k i v j) (body2L k i v' j) := by
  unfold body2L
  rw [h]
  refine Rel.bind (Rel.refl _) fun _ _ _ => ?_
  refine Rel.bind (roundsRegL_rel _ _ _ _ _ _ _ _) fun _ _ _ => ?_
  refine Rel.bind (updAL_rel _ _ _ _ _) fun _ _ _ => ?_
  exact Rel.bind (updAL_rel _ _ _ _ _) fun _ _ _ => Rel.pure rfl
theorem mainLoop2L_rel (k : Raw.Obj) {v v' : St2} (h : v.idx = v'.idx) : Rel (fun v v' => v.idx = v'.idx) (mainLoop2L k v) (mainLoop2L k v') :=
  Rel.loop rfl h fun _ _ _ h => Rel.loop rfl h fun _ _ _ h => body2L_rel k _ h _
theorem fillL_rel {n : Nat} (a b : Arr 128 n) (f g : Nat → V128) : Rel Any (fillL a f) (fillL b g) :=
  Rel.loop (R := Any) rfl trivial fun _ _ _ _ => updAL_rel _ _ _ _ _
theorem secondL_rel (a b : Arr 128 40) (s s' : V8 W64) : Rel Any (secondL a s) (secondL b s') :=
  Rel.loop (R := Any) rfl trivial fun _ _ _ _ => Rel.bind (wordL_rel _ _ _ _ _) fun _ _ _ => Rel.pure trivial
theorem loadFromL_rel {o o' : Raw.Obj} (h : SameObj o o') (p j : Nat) : Rel Any (loadFromL o p j) (loadFromL o' p j) := by
  unfold loadFromL
  rw [h.region]
  exact Rel.bind (Rel.refl _) fun _ _ e => h.loaduL e
theorem avx2PairL_rel (k : Raw.Obj) {o o' : Raw.Obj} (h : SameObj o o') (v v' : V8 W64 × V8 V256 × Arr 128 8 × Arr 128 40) (i : Nat) :
    Rel Any (avx2PairL k o v i) (avx2PairL k o' v' i) := by
  unfold avx2PairL
  rw [h.region, h.1]
  refine Rel.bind (Rel.refl _) fun d d' e => ?_
  cases e
  refine Rel.bind (all8L_rel fun i => Rel.bind (loadFromL_rel h _ _) fun _ _ _ => Rel.bind (loadFromL_rel h _ _) fun _ _ _ => Rel.pure trivial) fun _ _ _ => ?_
  refine Rel.bind (Rel.refl _) fun _ _ _ => ?_
  refine Rel.bind (fillL_rel _ _ _ _) fun _ _ _ => ?_
  refine Rel.bind (fillL_rel _ _ _ _) fun _ _ _ => ?_
  refine Rel.bind (mainLoop2L_rel k rfl) fun _ _ _ => ?_
  refine Rel.bind (lastLoopL_rel _ _ _ _ _ _ _) fun _ _ _ => ?_
  refine Rel.bind (accumulateL_rel _ _ _ _) fun _ _ _ => ?_
  refine Rel.bind (secondL_rel _ _ _ _) fun _ _ _ => ?_
  exact Rel.bind (accumulateL_rel _ _ _ _) fun _ _ _ => Rel.pure trivial
theorem firstL_rel (k : Raw.Obj) {o o' : Raw.Obj} (h : SameObj o o') (n : Nat) (s s' : V8 W64) :
    Rel (fun x y => x.2 = y.2) (firstL k o n s) (firstL k o' n s') := by
  refine Rel.branch Iff.rfl (Rel.bind (Rel.refl _) fun _ _ _ => ?_) (Rel.pure rfl)
  exact Rel.bind (avxBlockL_rel k s s' ⟨h.1, by simp only [List.length_take, h.2]⟩) fun _ _ _ => Rel.pure rfl
theorem avx2L_rel (a : Nat) (s s' : V8 W64) {o o' : Raw.Obj} (h : SameObj o o') (n : Nat) : Rel Any (avx2L a s o n) (avx2L a s' o' n) := by
  refine Rel.bind (firstL_rel _ h n s s') fun x y e => ?_
  rw [e]
  exact Rel.bind (Rel.loop (R := Any) rfl trivial fun _ _ _ _ => avx2PairL_rel _ h _ _ _) fun _ _ _ => Rel.pure trivial

end Hashes.Sha2Simd
