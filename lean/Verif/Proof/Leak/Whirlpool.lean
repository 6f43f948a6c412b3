import Verif.Leak.Whirlpool
import Verif.Proof.Leak.Recover
import Verif.Proof.Checked.Whirlpool
/- Whirlpool: forgetting the observations; they determine the block. -/
namespace Hashes.Whirlpool
open Leak

theorem lookL_val (k : List W64) (j a : Nat) : (lookL k j a).val = lookC k j a := by simp only [lookL, lookC, val_bind, val_idx, val_shr]
theorem lineL_val (k : List W64) (i : Nat) : (lineL k i).val = lineC k i := by simp only [lineL, lineC, val_bind, lookL_val, val_pure]; rfl
theorem rcL_val (i r : Nat) : (rcL i r).val = rcC i r := by simp only [rcL, rcC, val_branch, val_idx, val_pure]
theorem roundL_val (st : List W64 × List W64 × List W64) (r : Nat) : (roundL st r).val = roundC st r := by
  simp only [roundL, roundC, val_bind, val_loop, val_upd, val_idx, lineL_val, rcL_val, val_pure]; rfl
theorem compressL_val (s : List W64) (b : Bytes) : (compressL s b).val = compressC s b := by
  simp only [compressL, compressC, val_bind, val_load, val_fromLe, val_copy, val_loop, val_upd, val_idx, roundL_val]

theorem lookL_num (k k' : List W64) (j a : Nat) : Num Any (lookL k j a) (lookL k' j a) := by unfold lookL; num
theorem lineL_num (k k' : List W64) (i : Nat) : Num Any (lineL k i) (lineL k' i) := by
  unfold lineL
  repeat (refine Num.bind (lookL_num _ _ _ _) fun _ _ _ => ?_)
  exact Num.pure trivial
theorem rcL_num (i r : Nat) : Num Any (rcL i r) (rcL i r) := (Num.of_rel (Rel.refl _)).mono fun _ _ _ => trivial
theorem roundL_num (st st' : List W64 × List W64 × List W64) (r : Nat) : Num Any (roundL st r) (roundL st' r) := by
  unfold roundL
  refine Num.bind (R := Any) (Num.loop trivial fun _ _ i _ => Num.bind (lineL_num _ _ _) fun _ _ _ => Num.bind (rcL_num _ _) fun _ _ _ => Num.any_emit) fun _ _ _ => ?_
  refine Num.bind (R := Any) (Num.loop trivial fun _ _ i _ => Num.bind (lineL_num _ _ _) fun _ _ _ => Num.bind Num.any_emit fun _ _ _ => Num.any_emit) fun _ _ _ => ?_
  exact Num.pure trivial

/-- Byte `j` of word `a` is the same in both. -/
def SameByte (s s' : V8 W64) (j a : Nat) : Prop := (s.get a >>> (8 * j)) &&& 0xff = (s'.get a >>> (8 * j)) &&& 0xff

theorem lookL_tells (s s' : V8 W64) {j a : Nat} (hj : j < 8) (ha : a < 8) :
    Tells (fun _ _ => SameByte s s' j a) (lookL s.toList j a) (lookL s'.toList j a) := by
  unfold lookL
  refine Tells.idx fun t t' _ _ _ => Tells.idx fun u u' _ hu hu' => Tells.skip Num.emit fun x x' _ _ hx => ?_
  have e : u = s.get a := Option.some.inj (hu.symm.trans (Rs.idx_v8 s ha))
  have e' : u' = s'.get a := Option.some.inj (hu'.symm.trans (Rs.idx_v8 s' ha))
  have ex := Option.some.inj (hx.1.symm.trans (Rs.shr_lt (by omega)))
  have ex' := Option.some.inj (hx.2.symm.trans (Rs.shr_lt (by omega)))
  subst e e' ex ex'
  intro v v' _ _ h
  simp only [Leak.idx, Leak.emit, List.cons.injEq, Obs.index.injEq, and_true] at h
  exact BitVec.eq_of_toNat_eq h

theorem lineL_tells (s s' : V8 W64) (i : Nat) :
    Tells (fun _ _ => ∀ j, j < 8 → SameByte s s' j ((8 - j + i) % 8)) (lineL s.toList i) (lineL s'.toList i) := by
  unfold lineL
  have hm {n : Nat} : n % 8 < 8 := Nat.mod_lt _ (by decide)
  refine Tells.bind (lookL_num _ _ _ _) (lookL_tells s s' (by decide) hm) fun _ _ _ _ _ h0 => ?_
  refine Tells.bind (lookL_num _ _ _ _) (lookL_tells s s' (by decide) hm) fun _ _ _ _ _ h1 => ?_
  refine Tells.bind (lookL_num _ _ _ _) (lookL_tells s s' (by decide) hm) fun _ _ _ _ _ h2 => ?_
  refine Tells.bind (lookL_num _ _ _ _) (lookL_tells s s' (by decide) hm) fun _ _ _ _ _ h3 => ?_
  refine Tells.bind (lookL_num _ _ _ _) (lookL_tells s s' (by decide) hm) fun _ _ _ _ _ h4 => ?_
  refine Tells.bind (lookL_num _ _ _ _) (lookL_tells s s' (by decide) hm) fun _ _ _ _ _ h5 => ?_
  refine Tells.bind (lookL_num _ _ _ _) (lookL_tells s s' (by decide) hm) fun _ _ _ _ _ h6 => ?_
  refine Tells.bind (lookL_num _ _ _ _) (lookL_tells s s' (by decide) hm) fun _ _ _ _ _ h7 => ?_
  refine Tells.pure fun j hj => ?_
  match j, hj with
  | 0, _ => rw [show (8 - 0 + i) % 8 = i % 8 by omega]; exact h0
  | 1, _ => exact h1
  | 2, _ => exact h2
  | 3, _ => exact h3
  | 4, _ => exact h4
  | 5, _ => exact h5
  | 6, _ => exact h6
  | 7, _ => exact h7

theorem roundL_tells (k l l' : List W64) (s s' : V8 W64) (r : Nat) :
    Tells (fun _ _ => s = s') (roundL (k, s.toList, l) r) (roundL (k, s'.toList, l') r) := by
  unfold roundL
  refine Tells.skip (R := Any) (Num.loop trivial fun _ _ i _ => Num.bind (lineL_num _ _ _) fun _ _ _ => Num.bind (rcL_num _ _) fun _ _ _ => Num.any_emit)
    fun m m' _ _ _ => ?_
  have hn : ∀ (s t : List W64) (i : Nat), Any s t → Num Any _ _ := fun a b i _ =>
    Num.bind (lineL_num s.toList s'.toList i) fun u u' _ => Num.bind (Num.any_emit (o := .index i) (o' := .index i) (x := Rs.idx m i) (y := Rs.idx m' i))
      fun v v' _ => Num.any_emit (o := .index i) (o' := .index i) (x := Rs.upd a i (u ^^^ v)) (y := Rs.upd b i (u' ^^^ v'))
  refine Tells.bind (R := Any) (Num.loop trivial hn)
    (Tells.fold_range (Q := fun i _ _ => ∀ i', i' < i → ∀ j, j < 8 → SameByte s s' j ((8 - j + i') % 8)) (R := Any) trivial (by simp) hn ?_) ?_
  · intro a b i hi h
    refine Tells.bind (lineL_num _ _ _) (lineL_tells s s' i) fun _ _ _ _ _ h' => Tells.const fun i' hi' => ?_
    by_cases e : i' = i
    · subst e; exact h'
    · exact h i' (by omega)
  · intro a b _ _ _ h
    refine Tells.pure (v8_ext fun a ha => bytes_ext fun j hj => ?_)
    have := h ((a + j) % 8) (Nat.mod_lt _ (by decide)) j hj
    rwa [show (8 - j + (a + j) % 8) % 8 = a by omega] at this

/-- The observations of `compress` determine the block. -/
theorem compressL_tells {γ : Type} {k k' : List W64 → Leak γ} (state : V8 W64) {b b' : Bytes} (hb : b.length = 64) (hb' : b'.length = 64) :
    Tells (fun _ _ => b = b') (compressL state.toList b >>= k) (compressL state.toList b' >>= k') := by
  unfold compressL
  simp only [bind_assoc]
  refine Tells.skip (Num.of_rel (Rel.load rfl (hb.trans hb'.symm) fun _ _ h => Rel.fromLe h)) fun x x' hx hx' _ => ?_
  rw [val_load] at hx hx'
  cases (Rs.load_v8_le rfl hb).symm.trans hx
  cases (Rs.load_v8_le rfl hb').symm.trans hx'
  refine Tells.skip Num.emit fun k k' _ _ hk => ?_
  obtain ⟨hk, hk'⟩ := hk
  have e0 : Rs.copy (List.replicate 8 (0 : W64)) 0 8 state.toList = some state.toList := by
    rw [Rs.copy_le (by decide) (by decide) rfl]; simp [V8.toList]
  cases e0.symm.trans hk
  cases e0.symm.trans hk'
  have e1 (b : Bytes) : (Rs.loop 8 (List.replicate 8 (0 : W64)) fun s i => do
      Rs.upd s i ((← Rs.idx (V8.ofFn (wordLE 64 b)).toList i) ^^^ (← Rs.idx state.toList i))) =
      some ((V8.ofFn (wordLE 64 b)).zip (· ^^^ ·) state).toList :=
    Rs.fill_v8 (fun i => (V8.ofFn (wordLE 64 b)).get i ^^^ state.get i) rfl fun i l hi hl =>
      Rs.bind_ok (Rs.idx_v8 _ hi) <| Rs.bind_ok (Rs.idx_v8 _ hi) (Rs.upd_lt (by omega))
  refine Tells.skip (R := Any) (Num.loop trivial (by num)) fun s s' hs hs' _ => ?_
  simp only [val_loop, val_bind, val_idx, val_upd] at hs hs'
  cases (e1 b).symm.trans hs
  cases (e1 b').symm.trans hs'
  refine Tells.bind (R := Any) (Num.loop trivial fun _ _ _ _ => roundL_num _ _ _)
    (Tells.loop_first (by decide) (roundL_num _ _ _) (roundL_tells _ _ _ _ _ _)) fun _ _ _ _ _ h => Tells.const ?_
  refine wordsLE_inj (n := 8) (w := 64) (by decide) hb hb' (congrArg V8.toList (v8_xor_right h))

end Hashes.Whirlpool
