import Verif.Leak.Kupyna
import Verif.Proof.Leak.Recover
import Verif.Proof.Checked.Kupyna
/- Kupyna: forgetting the observations; they determine the block. -/
namespace Hashes.Kupyna
open Leak

theorem at2L_val (m : Matrix) (a b : Nat) : (at2L m a b).val = at2 m a b := by simp only [at2L, at2, val_bind, val_idx]
theorem upd2L_val (m : Matrix) (a b : Nat) (v : Byte) : (upd2L m a b v).val = upd2 m a b v := by simp only [upd2L, upd2, val_bind, val_idx, val_upd]
theorem multiplyGfL_val (x y : Byte) : (multiplyGfL x y).val = multiplyGfC x y := by
  simp only [multiplyGfL, multiplyGfC, val_bind, val_loop, val_branch, val_shr, val_shl, val_pure, ← apply_ite some, Option.bind_eq_bind, Option.bind_some]; rfl
theorem mixColumnsL_val (n : Nat) (s : Matrix) : (mixColumnsL n s).val = mixColumnsC n s := by
  simp only [mixColumnsL, mixColumnsC, val_bind, val_loop, at2L_val, upd2L_val, multiplyGfL_val, val_pure]; rfl
theorem applySBoxL_val (s : Matrix) : (applySBoxL s).val = applySBoxC s := by
  simp only [applySBoxL, applySBoxC, val_bind, val_loop, val_mapM, val_idx, val_upd]
theorem addConstantXorL_val (n : Nat) (s : Matrix) (r : Nat) : (addConstantXorL n s r).val = addConstantXorC n s r := by
  simp only [addConstantXorL, addConstantXorC, val_bind, val_loop, val_idx, val_upd]
theorem addConstantPlusL_val (n : Nat) (s : Matrix) (r : Nat) : (addConstantPlusL n s r).val = addConstantPlusC n s r := by
  simp only [addConstantPlusL, addConstantPlusC, val_bind, val_loop, val_idx, val_upd, val_fromLe, val_usub, val_shl, val_copy]
theorem blockToMatrixL_val (n : Nat) (b : Bytes) : (blockToMatrixL n b).val = blockToMatrixC n b := by
  simp only [blockToMatrixL, blockToMatrixC, val_bind, val_loop, val_idx, upd2L_val]
theorem matrixToBlockL_val (n : Nat) (m : Matrix) : (matrixToBlockL n m).val = matrixToBlockC n m := by
  simp only [matrixToBlockL, matrixToBlockC, val_bind, val_loop, val_upd, at2L_val]
theorem nextShiftL_val (g : Cfg) (i : Nat) (s : Int) : (nextShiftL g i s).val = nextShift g i s := by
  simp only [nextShiftL, nextShift, val_bind, val_usub, val_branch, val_pure]; rfl
theorem addShiftL_val (c : Nat) (s : Int) : (addShiftL c s).val = addShift c s := rfl
theorem rotateL_val (g : Cfg) (st : Matrix × Bytes × Int) (i : Nat) : (rotateL g st i).val = rotateC g st i := by
  simp only [rotateL, rotateC, val_bind, val_loop, nextShiftL_val, addShiftL_val, at2L_val, upd2L_val, val_idx, val_upd, val_pure]; rfl
theorem rotateRowsL_val (g : Cfg) (s : Matrix) : (rotateRowsL g s).val = rotateRowsC g s := by
  simp only [rotateRowsL, rotateRowsC, val_bind, val_loop, rotateL_val, val_pure]; rfl
theorem tPlusL_val (g : Cfg) (b : Bytes) : (tPlusL g b).val = tPlusC g b := by
  simp only [tPlusL, tPlusC, val_bind, val_loop, blockToMatrixL_val, addConstantPlusL_val, applySBoxL_val, rotateRowsL_val, mixColumnsL_val, matrixToBlockL_val]
theorem tXorL_val (g : Cfg) (b : Bytes) : (tXorL g b).val = tXorC g b := by
  simp only [tXorL, tXorC, val_bind, val_loop, blockToMatrixL_val, addConstantXorL_val, applySBoxL_val, rotateRowsL_val, mixColumnsL_val, matrixToBlockL_val]
theorem xorBytesL_val (n : Nat) (a b : Bytes) : (xorBytesL n a b).val = xorBytesC n a b := by
  simp only [xorBytesL, xorBytesC, val_bind, val_loop, val_idx, val_upd]
theorem compressL_val (g : Cfg) (p : List W64) (b : Bytes) : (compressL g p b).val = compressC g p b := by
  simp only [compressL, compressC, val_bind, val_store, xorBytesL_val, tXorL_val, tPlusL_val, val_load, val_fromBe]

variable {n : Nat}

/-- The body of the inner loop of `apply_s_box`. -/
def cellL (i : Nat) (row : Bytes) : Leak Bytes := do upd row i (← idx (← idx SBOXES (i % 4)) (← idx row i).toNat)

theorem cellL_num (i : Nat) (r r' : Bytes) : Num Any (cellL i r) (cellL i r') := by unfold cellL; num

theorem cellL_tells {i : Nat} (hi : i < 8) (f f' : Nat → Byte) :
    Tells (fun _ _ => f i = f' i) (cellL i ((List.range 8).map f)) (cellL i ((List.range 8).map f')) := by
  unfold cellL
  refine Tells.idx fun _ _ _ _ _ => Tells.idx fun x x' _ hx hx' => Tells.idx fun _ _ e _ _ => Tells.const ?_
  rw [List.getElem?_map, List.getElem?_range hi] at hx hx'
  cases hx; cases hx'
  exact BitVec.eq_of_toNat_eq e

theorem rowsL_tells {i : Nat} (hi : i < 8) (f f' : Nat → Nat → Byte) :
    Tells (fun _ _ => ∀ a, a < n → f a i = f' a i) ((build n f).mapM (cellL i)) ((build n f').mapM (cellL i)) := by
  unfold build
  rw [List.mapM_map, List.mapM_map]
  intro a b ha hb ho k hk
  exact Tells.mapM (fun c => cellL_num i _ _) (p := fun k => f k i = f' k i) (fun c hc => cellL_tells hi (f c) (f' c)) a b ha hb ho k (by simpa using hk)

theorem applySBoxL_num {s s' : Matrix} (h : Len s s') : Num Len (applySBoxL s) (applySBoxL s') :=
  Num.loop h fun _ _ i h => Num.mapM' (cellL_num i) h

theorem sboxStepL_val (f : Nat → Nat → Byte) {i : Nat} (hi : i < 8) :
    ((build n (sboxCell f i)).mapM (cellL i)).val = some (build n (sboxCell f (i + 1))) := by
  rw [val_mapM]
  simp only [cellL, val_bind, val_idx, val_upd]
  exact sboxStepC_eq f hi

theorem applySBoxL_tells (f f' : Nat → Nat → Byte) :
    Tells (fun _ _ => ∀ b, b < 8 → ∀ a, a < n → f a b = f' a b) (applySBoxL (build n f)) (applySBoxL (build n f')) := by
  have e0 (f : Nat → Nat → Byte) : build n f = build n (sboxCell f 0) := build_congr fun a _ b _ => by simp [sboxCell]
  have key : Tells (fun s s' => s = build n (sboxCell f 8) ∧ s' = build n (sboxCell f' 8) ∧ ∀ b, b < 8 → ∀ a, a < n → f a b = f' a b)
      (applySBoxL (build n f)) (applySBoxL (build n f')) := by
    refine Tells.fold_range (f := fun s i => s.mapM (cellL i)) (g := fun s i => s.mapM (cellL i)) (R := Len)
      (Q := fun k s s' => s = build n (sboxCell f k) ∧ s' = build n (sboxCell f' k) ∧ ∀ b, b < k → ∀ a, a < n → f a b = f' a b)
      (by simp [Len, build]) ⟨e0 f, e0 f', by simp⟩ (fun _ _ i h => Num.mapM' (cellL_num i) h) ?_
    rintro _ _ i hi ⟨rfl, rfl, hq⟩ a b ha hb ho
    have e := Option.some.inj (ha.symm.trans (sboxStepL_val f hi))
    have e' := Option.some.inj (hb.symm.trans (sboxStepL_val f' hi))
    refine ⟨e, e', fun k hk c hc => ?_⟩
    by_cases h : k = i
    · subst h
      have := rowsL_tells hi _ _ a b ha hb ho c hc
      simpa [sboxCell] using this
    · exact hq k (by omega) c hc
  exact fun a b ha hb ho => (key a b ha hb ho).2.2

theorem blockToMatrixL_num (b b' : Bytes) : Num Any (blockToMatrixL n b) (blockToMatrixL n b') := by unfold blockToMatrixL upd2L; num
theorem addConstantXorL_num (s s' : Matrix) (r : Nat) : Num Any (addConstantXorL n s r) (addConstantXorL n s' r) := by unfold addConstantXorL; num
theorem xorBytesL_num (a a' b b' : Bytes) : Num Any (xorBytesL n a b) (xorBytesL n a' b') := by unfold xorBytesL; num

variable {g : Cfg}

/-- The observations of `t_xor_l` determine its argument. -/
theorem tXorL_tells (hr : 0 < g.rounds) {γ : Type} {m m' : Bytes} (hm : m.length = 8 * g.cols) (hm' : m'.length = 8 * g.cols) {k k' : Bytes → Leak γ} :
    Tells (fun _ _ => m = m') (tXorL g m >>= k) (tXorL g m' >>= k') := by
  unfold tXorL
  simp only [loop_pos hr, bind_assoc]
  refine Tells.skip (blockToMatrixL_num _ _) fun x x' hx hx' _ => ?_
  rw [blockToMatrixL_val] at hx hx'
  cases Option.some.inj ((blockToMatrixC_eq hm).symm.trans hx)
  cases Option.some.inj ((blockToMatrixC_eq hm').symm.trans hx')
  refine Tells.skip (addConstantXorL_num _ _ _) fun x x' hx hx' _ => ?_
  rw [addConstantXorL_val] at hx hx'
  cases Option.some.inj ((addConstantXorC_eq _ _).symm.trans hx)
  cases Option.some.inj ((addConstantXorC_eq _ _).symm.trans hx')
  refine Tells.bind (applySBoxL_num (by simp [Len, addConstantXor, build])) (applySBoxL_tells _ _) fun _ _ _ _ _ h => Tells.const ?_
  refine Rs.ext_getD 0 (by omega) fun i hi => ?_
  have := h (i % 8) (Nat.mod_lt _ (by decide)) (i / 8) (by omega)
  simp only [at'_build _ (show i / 8 < g.cols by omega) (Nat.mod_lt i (by decide : 0 < 8))] at this
  rw [show i / 8 * 8 + i % 8 = i by omega] at this
  by_cases e : i % 8 = 0
  · rw [if_pos e, if_pos e] at this
    exact (BitVec.xor_left_inj _).mp this
  · rwa [if_neg e, if_neg e] at this

/-- The observations of `compress` determine the block. -/
theorem compressL_tells {γ : Type} {k k' : List W64 → Leak γ} (hr : 0 < g.rounds) (prev : Arr 64 g.cols) {b b' : Bytes} (hb : b.length = 8 * g.cols) (hb' : b'.length = 8 * g.cols) :
    Tells (fun _ _ => b = b') (compressL g prev.toList b >>= k) (compressL g prev.toList b' >>= k') := by
  unfold compressL
  simp only [bind_assoc]
  refine Tells.skip (Num.of_rel (Rel.refl _)) fun p p' hp hp' e => ?_
  subst e
  rw [val_store] at hp
  cases Option.some.inj ((storeC_eq prev).symm.trans hp)
  have lp : (bytesOfWordsBE prev.toList).length = 8 * g.cols := by rw [length_bytesOfWordsBE, show prev.toList.length = g.cols from prev.2, Nat.mul_comm]
  refine Tells.skip (xorBytesL_num _ _ _ _) fun m m' hm hm' _ => ?_
  rw [xorBytesL_val] at hm hm'
  cases Option.some.inj ((xorBytesC_eq hb lp).symm.trans hm)
  cases Option.some.inj ((xorBytesC_eq hb' lp).symm.trans hm')
  intro x y hx hy ho
  have := tXorL_tells hr (by simp [xorBytes, hb, lp]) (by simp [xorBytes, hb', lp]) x y hx hy ho
  refine Rs.ext_getD 0 (by omega) fun i hi => ?_
  have := congrArg (fun l : Bytes => l.getD i 0) this
  simp only [xorBytes] at this
  rw [Rs.getD_zipWith 0 _ (by omega) (by omega), Rs.getD_zipWith 0 _ (by omega) (by omega)] at this
  exact (BitVec.xor_left_inj _).mp this

end Hashes.Kupyna
