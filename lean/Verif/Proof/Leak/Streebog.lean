import Verif.Leak.Streebog
import Verif.Proof.Leak.Recover
import Verif.Proof.Checked.Streebog
/- Streebog: forgetting the observations; they determine the block. -/
namespace Hashes.Streebog
open Leak

theorem lpsL_val (h n : List W64) : (lpsL h n).val = lpsC h n := by
  simp only [lpsL, lpsC, val_bind, val_loop, val_upd, val_idx, val_shr]
theorem gL_val (h n m : List W64) : (gL h n m).val = gC h n m := by
  simp only [gL, gC, val_bind, val_loop, val_upd, val_idx, val_foldlM, lpsL_val, val_pure]; rfl
theorem updateSigmaL_val (s m : List W64) : (updateSigmaL s m).val = updateSigmaC s m := by
  simp only [updateSigmaL, updateSigmaC, val_bind, val_loop, val_upd, val_idx, val_pure]; rfl
theorem updateNL_val (n : List W64) (l : W64) : (updateNL n l).val = updateNC n l := by
  simp only [updateNL, updateNC, val_bind, val_loop, val_upd, val_idx, val_mul, val_pure]; rfl
theorem compressL_val (h n s : List W64) (b : Bytes) (l : W64) : (compressL h n s b l).val = compressC h n s b l := by
  simp only [compressL, compressC, val_bind, fromBytesL, val_load, val_fromLe, gL_val, updateNL_val, updateSigmaL_val, val_pure]; rfl

theorem lpsL_num (h n h' n' : List W64) : Num Any (lpsL h n) (lpsL h' n') := by unfold lpsL; num

/-- The body of the inner loop of `lps`. -/
def cellL (t : List W64) (i : Nat) (buf : List W64) (j : Nat) : Leak (List W64) := do
  let k := ((← shr (← idx t j) (8 * i)) &&& 0xff).toNat
  upd buf i ((← idx buf i) ^^^ (← idx (← idx SHUFFLED_LIN_TABLE j) k))

/-- Byte `i` of word `j` is the same in both. -/
def SameByte (s s' : V8 W64) (i j : Nat) : Prop := (s.get j >>> (8 * i)) &&& 0xff = (s'.get j >>> (8 * i)) &&& 0xff

theorem cellL_num (t t' : List W64) (i : Nat) (s s' : List W64) (j : Nat) : Num Any (cellL t i s j) (cellL t' i s' j) := by unfold cellL; num

theorem cellL_tells (t t' : V8 W64) {i j : Nat} (hi : i < 8) (hj : j < 8) (s s' : List W64) :
    Tells (fun _ _ => SameByte t t' i j) (cellL t.toList i s j) (cellL t'.toList i s' j) := by
  unfold cellL
  refine Tells.idx fun u u' _ hu hu' => Tells.skip Num.emit fun x x' _ _ hx => ?_
  have e : u = t.get j := Option.some.inj (hu.symm.trans (Rs.idx_v8 t hj))
  have e' : u' = t'.get j := Option.some.inj (hu'.symm.trans (Rs.idx_v8 t' hj))
  have ex := Option.some.inj (hx.1.symm.trans (Rs.shr_lt (by omega)))
  have ex' := Option.some.inj (hx.2.symm.trans (Rs.shr_lt (by omega)))
  rw [ex, ex', e, e']
  exact Tells.idx fun _ _ _ _ _ => Tells.idx fun _ _ _ _ _ => Tells.idx fun _ _ e _ _ => Tells.const (BitVec.eq_of_toNat_eq e)

theorem rowL_num (t t' : List W64) (i : Nat) (s s' : List W64) : Num Any (loop 8 s (cellL t i)) (loop 8 s' (cellL t' i)) :=
  Num.loop trivial fun _ _ _ _ => cellL_num _ _ _ _ _ _

theorem rowL_tells (t t' : V8 W64) {i : Nat} (hi : i < 8) (s s' : List W64) :
    Tells (fun _ _ => ∀ j, j < 8 → SameByte t t' i j) (loop 8 s (cellL t.toList i)) (loop 8 s' (cellL t'.toList i)) := by
  refine Tells.fold_range (R := Any) (Q := fun k _ _ => ∀ j, j < k → SameByte t t' i j) trivial (by simp) (fun _ _ _ _ => cellL_num _ _ _ _ _ _) ?_
  intro s s' j hj hr a b ha hb ho k hk
  by_cases e : k = j
  · subst e; exact cellL_tells t t' hi hj s s' a b ha hb ho
  · exact hr k (by omega)

theorem cellsL_bytes (t t' : V8 W64) (s : List W64) : Tells (fun _ _ => ∀ i, i < 8 → ∀ j, j < 8 → SameByte t t' i j)
    (loop 8 s fun buf i => loop 8 buf (cellL t.toList i)) (loop 8 s fun buf i => loop 8 buf (cellL t'.toList i)) := by
  refine Tells.fold_range (R := Any) (Q := fun i _ _ => ∀ i', i' < i → ∀ j, j < 8 → SameByte t t' i' j) trivial (by simp)
    (fun _ _ _ _ => rowL_num _ _ _ _ _) ?_
  intro s s' i hi hq a b ha hb ho i' hi'
  by_cases e : i' = i
  · subst e; exact rowL_tells t t' hi s s' a b ha hb ho
  · exact hq i' (by omega)

theorem cellsL_tells (t t' : V8 W64) (s : List W64) : Tells (fun _ _ => t = t')
    (loop 8 s fun buf i => loop 8 buf (cellL t.toList i)) (loop 8 s fun buf i => loop 8 buf (cellL t'.toList i)) := by
  intro a b ha hb ho
  exact v8_ext fun j hj => bytes_ext fun i hi => cellsL_bytes t t' s a b ha hb ho i hi j hj

theorem xorL_val (h n : V8 W64) : (loop 8 h.toList fun h i => do upd h i ((← idx h i) ^^^ (← idx n.toList i))).val =
    some (V8.zip (· ^^^ ·) h n).toList := by
  simp only [val_loop, val_bind, val_idx, val_upd]
  exact Rs.modify_v8 (fun i x => x ^^^ n.get i) fun i l hi hl e => Rs.bind_ok e <| Rs.bind_ok (Rs.idx_v8 _ hi) (Rs.upd_lt (by omega))

theorem lpsL_tells (h h' n : V8 W64) : Tells (fun _ _ => h = h') (lpsL h.toList n.toList) (lpsL h'.toList n.toList) := by
  have hn : Num Any (loop 8 h.toList fun h i => do upd h i ((← idx h i) ^^^ (← idx n.toList i)))
      (loop 8 h'.toList fun h i => do upd h i ((← idx h i) ^^^ (← idx n.toList i))) := Num.loop trivial (by num)
  unfold lpsL
  refine Tells.skip hn fun x x' hx hx' _ => ?_
  cases Option.some.inj ((xorL_val h n).symm.trans hx)
  cases Option.some.inj ((xorL_val h' n).symm.trans hx')
  refine fun a b ha hb ho => ?_
  exact v8_xor_right (cellsL_tells (V8.zip (· ^^^ ·) h n) (V8.zip (· ^^^ ·) h' n) (List.replicate 8 0) a b ha hb ho)

theorem gL_tells (h n m m' : V8 W64) : Tells (fun _ _ => m = m') (gL h.toList n.toList m.toList) (gL h.toList n.toList m'.toList) := by
  unfold gL
  refine Tells.skip (lpsL_num _ _ _ _) fun k k' hk hk' _ => ?_
  rw [lpsL_val] at hk hk'
  cases (lpsC_eq h n).symm.trans hk
  cases (lpsC_eq h n).symm.trans hk'
  obtain ⟨c, r, e⟩ : ∃ c r, C64 = c :: r := ⟨_, _, rfl⟩
  rw [e]
  have hn : ∀ (s t : List W64 × List W64) (c : V8 W64), Num Any (do
      let block ← lpsL s.2 s.1
      let key ← lpsL s.1 c.toList
      pure (key, block)) (do
      let block ← lpsL t.2 t.1
      let key ← lpsL t.1 c.toList
      pure (key, block)) := fun s t c =>
    Num.bind (lpsL_num _ _ _ _) fun _ _ _ => Num.bind (lpsL_num _ _ _ _) fun _ _ _ => Num.pure trivial
  exact Tells.bind (R := Any) (Num.fold trivial fun s t c _ => hn s t c) (Tells.fold_first (hn _ _ _)
    (Tells.bind (lpsL_num _ _ _ _) (lpsL_tells m m' (lps h n)) fun _ _ _ _ _ h => Tells.const h)) fun _ _ _ _ _ h => Tells.const h

theorem gL_num (h n m h' n' m' : List W64) : Num Any (gL h n m) (gL h' n' m') := by
  unfold gL
  refine Num.bind (lpsL_num _ _ _ _) fun _ _ _ => Num.bind (R := Any) (Num.fold trivial fun s t c _ => ?_) fun _ _ _ => ?_
  · exact Num.bind (lpsL_num _ _ _ _) fun _ _ _ => Num.bind (lpsL_num _ _ _ _) fun _ _ _ => Num.pure trivial
  · num

/-- The observations of `compress` determine the block. -/
theorem compressL_tells {γ : Type} {k k' : List W64 × List W64 × List W64 → Leak γ} (h n s : V8 W64) {b b' : Bytes} (hb : b.length = 64) (hb' : b'.length = 64) (l : W64) :
    Tells (fun _ _ => b = b') (compressL h.toList n.toList s.toList b l >>= k) (compressL h.toList n.toList s.toList b' l >>= k') := by
  unfold compressL
  simp only [bind_assoc]
  refine Tells.skip (Num.of_rel (Rel.load rfl (hb.trans hb'.symm) fun _ _ h => Rel.fromLe h)) fun x x' hx hx' _ => ?_
  rw [fromBytesL, val_load] at hx hx'
  cases (Rs.load_v8_le rfl hb).symm.trans hx
  cases (Rs.load_v8_le rfl hb').symm.trans hx'
  exact Tells.bind (gL_num _ _ _ _ _ _) (gL_tells _ _ _ _) fun _ _ _ _ _ h => Tells.const (wordsLE_inj (n := 8) (w := 64) (by decide) hb hb' (congrArg V8.toList h))

end Hashes.Streebog
