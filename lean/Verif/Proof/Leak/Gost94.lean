import Verif.Leak.Gost94
import Verif.Proof.Leak.Recover
import Verif.Proof.Checked.Gost94
/- GOST R 34.11-94: forgetting the observations; they determine the block. -/
namespace Hashes.Gost94
open Leak

theorem sboxL_val (a : W32) (s : List (List Byte)) : (sboxL a s).val = sboxC a s := by
  simp only [sboxL, sboxC, val_loop, val_bind, val_shl, val_shr, val_idx, val_add]
theorem gL_val (a k : W32) (s : List (List Byte)) : (gL a k s).val = gC a k s := by simp only [gL, gC, val_bind, sboxL_val, val_pure]; rfl
theorem roundL_val (k : List W32) (s : List (List Byte)) (ab : W32 × W32) (i : Nat) : (roundL k s ab i).val = roundC k s ab i := by
  simp only [roundL, roundC, val_bind, gL_val, val_idx, val_pure]; rfl
theorem encryptL_val (m k : Bytes) (s : List (List Byte)) : (encryptL m k s).val = encryptC m k s := by
  simp only [encryptL, encryptC, val_bind, val_slice, val_fromLe, val_load, val_loop, val_loopRev, roundL_val, val_copy]
theorem xL_val (a b : Bytes) : (xL a b).val = xC a b := by simp only [xL, xC, val_loop, val_bind, val_idx, val_upd]
theorem xMutL_val (a b : Bytes) : (xMutL a b).val = xMutC a b := by simp only [xMutL, xMutC, val_loop, val_bind, val_idx, val_upd]
theorem aL_val (x : Bytes) : (aL x).val = aC x := by simp only [aL, aC, val_loop, val_bind, val_idx, val_upd, val_slice, val_copy]
theorem pL_val (x : Bytes) : (pL x).val = pC x := by simp only [pL, pC, val_loop, val_bind, val_idx, val_upd]
theorem xorAtL_val (b o : Bytes) (i j : Nat) : (xorAtL b o i j).val = xorAt b o i j := by simp only [xorAtL, xorAt, val_bind, val_idx, val_upd]
theorem psiL_val (b : Bytes) : (psiL b).val = psiC b := by simp only [psiL, psiC, val_bind, val_slice, val_copy, xorAtL_val]
theorem adcL_val (a b c : W64) : (adcL a b c).val = adcC a b c := by simp only [adcL, adcC, val_bind, val_add, val_shr, val_pure]; rfl
theorem shuffleL_val (h m s : Bytes) : (shuffleL h m s).val = shuffleC h m s := by
  simp only [shuffleL, shuffleC, val_bind, val_copy, val_loop, psiL_val, xMutL_val]
theorem fL_val (sb : List (List Byte)) (h m : Bytes) : (fL sb h m).val = fC sb h m := by
  simp only [fL, fC, val_bind, val_copy, val_slice, pL_val, xL_val, aL_val, xMutL_val, encryptL_val, shuffleL_val]
theorem updateSigmaL_val (s : List W64) (m : Bytes) : (updateSigmaL s m).val = updateSigmaC s m := by
  simp only [updateSigmaL, updateSigmaC, val_bind, val_foldlM, val_fromLe, adcL_val, val_pure]; rfl
theorem compressL_val (sb : List (List Byte)) (s : StateC) (b : Bytes) : (compressL sb s b).val = compressC sb s b := by
  simp only [compressL, compressC, val_bind, fL_val, updateSigmaL_val, val_pure]; rfl

/-- A word from its eight nibbles. -/
theorem nibbles_ext {x y : W32} (h : ∀ i, i < 8 → (x &&& ((0b1111 : W32) <<< (4 * i))) >>> (4 * i) = (y &&& ((0b1111 : W32) <<< (4 * i))) >>> (4 * i)) :
    x = y := by
  refine BitVec.eq_of_getLsbD_eq fun i hi => ?_
  have := congrArg (fun v => v.getLsbD (i % 4)) (h (i / 4) (by omega))
  simp only [BitVec.getLsbD_and, BitVec.getLsbD_ushiftRight] at this
  have e2 : ∀ i, i < 32 → ((0b1111 : W32) <<< (4 * (i / 4))).getLsbD i = true := by decide
  rw [show 4 * (i / 4) + i % 4 = i by omega, e2 i hi, Bool.and_true, Bool.and_true] at this
  exact this

/-- The body of the loop of `sbox`. -/
def lookL (s : List (List Byte)) (a v : W32) (i : Nat) : Leak W32 := do
  let shft := 4 * i
  let k ← shr (a &&& (← shl (0b1111 : W32) shft)) shft
  add v (← shl (((← idx (← idx s i) k.toNat)).setWidth 32) shft)

theorem lookL_num (s : List (List Byte)) (a a' v v' : W32) (i : Nat) : Num Any (lookL s a v i) (lookL s a' v' i) := by unfold lookL; num
theorem sboxL_num (s : List (List Byte)) (a a' : W32) : Num Any (sboxL a s) (sboxL a' s) := Num.loop trivial fun _ _ _ _ => lookL_num _ _ _ _ _ _
theorem roundL_num (s : List (List Byte)) (k k' : List W32) (ab ab' : W32 × W32) (i : Nat) : Num Any (roundL k s ab i) (roundL k' s ab' i) :=
  Num.bind (R := Any) Num.any_emit fun _ _ _ => Num.bind (R := Any) (Num.bind (sboxL_num _ _ _) fun _ _ _ => Num.pure trivial) fun _ _ _ => Num.pure trivial

/-- Nibble `i` is the same in both. -/
def SameNibble (a a' : W32) (i : Nat) : Prop := (a &&& ((0b1111 : W32) <<< (4 * i))) >>> (4 * i) = (a' &&& ((0b1111 : W32) <<< (4 * i))) >>> (4 * i)

theorem lookL_tells (s : List (List Byte)) (a a' v v' : W32) {i : Nat} (hi : i < 8) :
    Tells (fun _ _ => SameNibble a a' i) (lookL s a v i) (lookL s a' v' i) := by
  unfold lookL
  refine Tells.skip Num.emit fun t t' _ _ ht => Tells.skip Num.emit fun k k' _ _ hk => Tells.idx fun _ _ _ _ _ => Tells.idx fun _ _ e _ _ => Tells.const ?_
  have e1 := Option.some.inj (ht.1.symm.trans (Rs.shl_lt (by omega)))
  have e2 := Option.some.inj (ht.2.symm.trans (Rs.shl_lt (by omega)))
  have e3 := Option.some.inj (hk.1.symm.trans (Rs.shr_lt (by omega)))
  have e4 := Option.some.inj (hk.2.symm.trans (Rs.shr_lt (by omega)))
  have := BitVec.eq_of_toNat_eq e
  rwa [e3, e4, e1, e2] at this

theorem sboxL_tells (s : List (List Byte)) (a a' : W32) : Tells (fun _ _ => a = a') (sboxL a s) (sboxL a' s) := by
  have key : Tells (fun _ _ => ∀ i, i < 8 → SameNibble a a' i) (sboxL a s) (sboxL a' s) := by
    refine Tells.fold_range (f := lookL s a) (g := lookL s a') (R := Any) (Q := fun k _ _ => ∀ i, i < k → SameNibble a a' i) trivial (by simp)
      (fun _ _ _ _ => lookL_num _ _ _ _ _ _) ?_
    intro v v' i hi hq x y hx hy ho k hk
    by_cases e : k = i
    · subst e; exact lookL_tells s a a' v v' hi x y hx hy ho
    · exact hq k (by omega)
  exact fun x y hx hy ho => nibbles_ext (key x y hx hy ho)

theorem roundL_tells (s : List (List Byte)) {k k' : List W32} (hk : k.length = 8) (hk' : k'.length = 8) (ab : W32 × W32) {i : Nat} (hi : i < 8) :
    Tells (fun x y => x = y ∧ k.getD i 0 = k'.getD i 0) (roundL k s ab i) (roundL k' s ab i) := by
  unfold roundL
  refine Tells.idx fun u u' _ hu hu' => ?_
  have e := Option.some.inj (hu.symm.trans (Rs.idx_lt 0 (by omega)))
  have e' := Option.some.inj (hu'.symm.trans (Rs.idx_lt 0 (by omega)))
  rw [← e, ← e']
  unfold gL
  simp only [bind_assoc]
  refine Tells.bind (sboxL_num _ _ _) (sboxL_tells _ _ _) fun a b ha hb _ h => ?_
  have h' : u = u' := BitVec.add_right_inj _ |>.mp h
  subst h'
  have : a = b := Option.some.inj (ha.symm.trans hb)
  subst this
  exact Tells.pure ⟨rfl, rfl⟩

theorem roundsL_tells (s : List (List Byte)) {k k' : List W32} (hk : k.length = 8) (hk' : k'.length = 8) (ab : W32 × W32) :
    Tells (fun _ _ => k = k') (loop 8 ab (roundL k s)) (loop 8 ab (roundL k' s)) := by
  have key : Tells (fun x y => x = y ∧ ∀ i, i < 8 → k.getD i 0 = k'.getD i 0) (loop 8 ab (roundL k s)) (loop 8 ab (roundL k' s)) := by
    refine Tells.fold_range (R := Any) (Q := fun n x y => x = y ∧ ∀ i, i < n → k.getD i 0 = k'.getD i 0) trivial ⟨rfl, by simp⟩
      (fun _ _ _ _ => roundL_num _ _ _ _ _ _) ?_
    rintro x _ i hi ⟨rfl, hq⟩ y z hy hz ho
    obtain ⟨h1, h2⟩ := roundL_tells s hk hk' x hi y z hy hz ho
    refine ⟨h1, fun j hj => ?_⟩
    by_cases e : j = i
    · subst e; exact h2
    · exact hq j (by omega)
  exact fun x y hx hy ho => Rs.ext_getD 0 (by omega) fun i hi => (key x y hx hy ho).2 i (by omega)

/-- The observations of `encrypt` determine the key. -/
theorem encryptL_tells {γ : Type} (s : List (List Byte)) (msg : Bytes) {k k' : Bytes} (hk : k.length = 32) (hk' : k'.length = 32) {c c' : Bytes → Leak γ} :
    Tells (fun _ _ => k = k') (encryptL msg k s >>= c) (encryptL msg k' s >>= c') := by
  unfold encryptL
  simp only [loop_pos (show 0 < 3 by decide), bind_assoc]
  refine Tells.skip (Num.of_rel (Rel.refl _)) fun m _ _ _ e => ?_
  subst e
  refine Tells.skip (Num.of_rel (Rel.refl _)) fun a _ _ _ e => ?_
  subst e
  refine Tells.skip (Num.of_rel (Rel.refl _)) fun m _ _ _ e => ?_
  subst e
  refine Tells.skip (Num.of_rel (Rel.refl _)) fun b _ _ _ e => ?_
  subst e
  refine Tells.skip (Num.of_rel (Rel.load rfl (hk.trans hk'.symm) fun _ _ h => Rel.fromLe h)) fun x x' hx hx' _ => ?_
  have hl {key : Bytes} (hk : key.length = 32) : Rs.load (List.replicate 8 (0 : W32)) key 4 (Rs.fromLe 32) = some ((List.range 8).map (wordLE 32 key)) :=
    Rs.load_le (w := 32) (by decide) (by simp) (by simpa using hk)
  rw [val_load] at hx hx'
  cases Option.some.inj ((hl hk).symm.trans hx)
  cases Option.some.inj ((hl hk').symm.trans hx')
  refine Tells.bind (R := Any) (Num.loop trivial fun _ _ _ _ => roundL_num _ _ _ _ _ _) (roundsL_tells s (by simp) (by simp) _) fun _ _ _ _ _ h => Tells.const ?_
  exact wordsLE_inj (n := 8) (w := 32) (by decide) hk hk' h

theorem p_inj {y z : Bytes} (hy : y.length = 32) (hz : z.length = 32) (h : p y = p z) : y = z := by
  refine Rs.ext_getD 0 (by omega) fun i hi => ?_
  have := congrArg (fun l : Bytes => l.getD (i / 8 + 4 * (i % 8)) 0) h
  simp only [p] at this
  rw [Rs.getD_map_range 0 _ (by omega), Rs.getD_map_range 0 _ (by omega)] at this
  rwa [show 8 * ((i / 8 + 4 * (i % 8)) % 4) + (i / 8 + 4 * (i % 8)) / 4 = i by omega] at this

theorem x_inj {h m m' : Bytes} (hm : m.length = 32) (hm' : m'.length = 32) (e : x h m = x h m') : m = m' := by
  refine Rs.ext_getD 0 (by omega) fun i hi => ?_
  have := congrArg (fun l : Bytes => l.getD i 0) e
  simp only [x] at this
  rw [Rs.getD_map_range 0 _ (by omega), Rs.getD_map_range 0 _ (by omega)] at this
  exact (BitVec.xor_right_inj _).mp this

theorem xL_num (a a' b b' : Bytes) : Num Any (xL a b) (xL a' b') := by unfold xL; num
theorem pL_num (y y' : Bytes) : Num Any (pL y) (pL y') := by unfold pL; num

/-- The observations of `f` determine the block. -/
theorem fL_tells {γ : Type} (sb : List (List Byte)) {h m m' : Bytes} (hh : h.length = 32) (hm : m.length = 32) (hm' : m'.length = 32) {c c' : Bytes → Leak γ} :
    Tells (fun _ _ => m = m') (fL sb h m >>= c) (fL sb h m' >>= c') := by
  unfold fL
  simp only [bind_assoc]
  refine Tells.skip (Num.of_rel (Rel.refl _)) fun s _ _ _ e => ?_
  subst e
  refine Tells.skip (xL_num _ _ _ _) fun x x' hx hx' _ => ?_
  rw [xL_val] at hx hx'
  cases Option.some.inj ((xC_eq hh hm).symm.trans hx)
  cases Option.some.inj ((xC_eq hh hm').symm.trans hx')
  refine Tells.skip (pL_num _ _) fun k k' hk hk' _ => ?_
  rw [pL_val] at hk hk'
  cases Option.some.inj ((pC_eq (length_xC _ _)).symm.trans hk)
  cases Option.some.inj ((pC_eq (length_xC _ _)).symm.trans hk')
  refine Tells.skip (Num.of_rel (Rel.refl _)) fun z _ _ _ e => ?_
  subst e
  exact fun a b ha hb ho => x_inj hm hm' (p_inj (length_xC _ _) (length_xC _ _) (encryptL_tells sb z (length_pC _) (length_pC _) a b ha hb ho))

/-- The observations of `compress` determine the block. -/
theorem compressL_tells {γ : Type} {k k' : StateC → Leak γ} (sb : List (List Byte)) {s : StateC} (hs : s.h.length = 32) {b b' : Bytes} (hb : b.length = 32) (hb' : b'.length = 32) :
    Tells (fun _ _ => b = b') (compressL sb s b >>= k) (compressL sb s b' >>= k') := by
  unfold compressL
  simp only [bind_assoc]
  exact fL_tells sb hs hb hb'

end Hashes.Gost94
