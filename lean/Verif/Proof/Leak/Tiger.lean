import Verif.Leak.Tiger
import Verif.Proof.Leak.Recover
import Verif.Proof.Checked.Tiger
/- Tiger: forgetting the observations; they determine the block. -/
namespace Hashes.Tiger
open Leak

theorem lookL_val (T : List (List W64)) (i : Nat) (c2 : Bytes) (j : Nat) : (lookL T i c2 j).val = lookC T i c2 j := by
  simp only [lookL, lookC, val_bind, val_idx]
theorem roundL_val (T : List (List W64)) (a b c x mul : W64) : (roundL T a b c x mul).val = roundC T a b c x mul := by
  simp only [roundL, roundC, val_bind, lookL_val, val_pure]; rfl
theorem passL_val (T : List (List W64)) (a b c : W64) (x : List W64) (mul : W64) : (passL T a b c x mul).val = passC T a b c x mul := by
  simp only [passL, passC, val_bind, val_idx, roundL_val, val_pure]; rfl
theorem keyScheduleL_val (x : List W64) : (keyScheduleL x).val = keyScheduleC x := by
  simp only [keyScheduleL, keyScheduleC, val_bind, val_idx, val_upd, val_shl, val_shr]
theorem compressL_val (T : List (List W64)) (state : List W64) (b : Bytes) : (compressL T state b).val = compressC T state b := by
  simp only [compressL, compressC, val_bind, val_idx, val_upd, val_load, val_fromLe, passL_val, keyScheduleL_val]

theorem lookL_num (T : List (List W64)) (i : Nat) (c2 c2' : Bytes) (j : Nat) : Num Any (lookL T i c2 j) (lookL T i c2' j) := by
  unfold lookL; num
theorem lookL_tells (T : List (List W64)) (i : Nat) (c2 c2' : Bytes) (j : Nat) :
    Tells (fun _ _ => c2[j]? = c2'[j]?) (lookL T i c2 j) (lookL T i c2' j) := by
  unfold lookL
  refine Tells.idx fun r r' _ _ _ => Tells.idx fun u u' _ hu hu' => ?_
  rw [hu, hu']
  intro v v' _ _ h
  simp only [Leak.idx, Leak.emit, List.cons.injEq, Obs.index.injEq, and_true] at h
  rw [BitVec.eq_of_toNat_eq h]

theorem roundL_num (T : List (List W64)) (a b c x a' b' c' x' mul : W64) : Num Any (roundL T a b c x mul) (roundL T a' b' c' x' mul) := by
  unfold roundL
  repeat (refine Num.bind (lookL_num _ _ _ _ _) fun _ _ _ => ?_)
  exact Num.pure trivial
theorem roundL_tells (T : List (List W64)) (a b c x x' mul : W64) :
    Tells (fun r r' => x = x' ∧ r = r') (roundL T a b c x mul) (roundL T a b c x' mul) := by
  have key : Tells (fun _ _ => x = x') (roundL T a b c x mul) (roundL T a b c x' mul) := by
    unfold roundL
    refine Tells.bind (lookL_num _ _ _ _ _) (lookL_tells _ _ _ _ _) fun _ _ _ _ _ h0 => ?_
    refine Tells.bind (lookL_num _ _ _ _ _) (lookL_tells _ _ _ _ _) fun _ _ _ _ _ h2 => ?_
    refine Tells.bind (lookL_num _ _ _ _ _) (lookL_tells _ _ _ _ _) fun _ _ _ _ _ h4 => ?_
    refine Tells.bind (lookL_num _ _ _ _ _) (lookL_tells _ _ _ _ _) fun _ _ _ _ _ h6 => ?_
    refine Tells.bind (lookL_num _ _ _ _ _) (lookL_tells _ _ _ _ _) fun _ _ _ _ _ h1 => ?_
    refine Tells.bind (lookL_num _ _ _ _ _) (lookL_tells _ _ _ _ _) fun _ _ _ _ _ h3 => ?_
    refine Tells.bind (lookL_num _ _ _ _ _) (lookL_tells _ _ _ _ _) fun _ _ _ _ _ h5 => ?_
    refine Tells.bind (lookL_num _ _ _ _ _) (lookL_tells _ _ _ _ _) fun _ _ _ _ _ h7 => ?_
    refine Tells.pure ?_
    have e : c ^^^ x = c ^^^ x' := leBytes_ext fun j hj => by
      match j, hj with
      | 0, _ => exact h0
      | 1, _ => exact h1
      | 2, _ => exact h2
      | 3, _ => exact h3
      | 4, _ => exact h4
      | 5, _ => exact h5
      | 6, _ => exact h6
      | 7, _ => exact h7
    simpa using e
  intro r r' hr hr' h
  have e := key r r' hr hr' h
  subst e
  rw [hr] at hr'
  exact ⟨rfl, Option.some.inj hr'⟩

theorem passL_num (T : List (List W64)) (a b c a' b' c' : W64) (x x' : List W64) (mul : W64) : Num Any (passL T a b c x mul) (passL T a' b' c' x' mul) := by
  unfold passL
  repeat (refine Num.bind Num.any_emit fun _ _ _ => Num.bind (roundL_num _ _ _ _ _ _ _ _ _ _) ?_; rintro ⟨_, _, _⟩ ⟨_, _, _⟩ _)
  exact Num.pure trivial
theorem passL_tells (T : List (List W64)) (a b c : W64) (x x' : V8 W64) (mul : W64) :
    Tells (fun _ _ => x = x') (passL T a b c x.toList mul) (passL T a b c x'.toList mul) := by
  unfold passL
  repeat (refine Tells.idx fun u u' _ hu hu' => Tells.bind (roundL_num _ _ _ _ _ _ _ _ _ _) (roundL_tells _ _ _ _ _ _ _) ?_
          rintro r _ - - - ⟨rfl, rfl⟩
          obtain ⟨_, _, _⟩ := r)
  refine Tells.pure ?_
  cases x; cases x'
  simp_all [V8.toList]

/-- The observations of `compress` determine the block. -/
theorem compressL_tells {γ : Type} {k k' : List W64 → Leak γ} (T : List (List W64)) (state : List W64) {b b' : Bytes} (hb : b.length = 64) (hb' : b'.length = 64) :
    Tells (fun _ _ => b = b') (compressL T state b >>= k) (compressL T state b' >>= k') := by
  unfold compressL
  simp only [bind_assoc]
  refine Tells.skip (Num.of_rel (Rel.load rfl (hb.trans hb'.symm) fun _ _ h => Rel.fromLe h)) fun x x' hx hx' _ => ?_
  rw [val_load] at hx hx'
  cases (Rs.load_v8_le (by simp) hb).symm.trans hx
  cases (Rs.load_v8_le (by simp) hb').symm.trans hx'
  refine Tells.idx fun u u' _ hu hu' => ?_
  rw [hu] at hu'; cases hu'
  refine Tells.idx fun v v' _ hv hv' => ?_
  rw [hv] at hv'; cases hv'
  refine Tells.idx fun w w' _ hw hw' => ?_
  rw [hw] at hw'; cases hw'
  refine Tells.bind (passL_num _ _ _ _ _ _ _ _ _ _) (passL_tells _ _ _ _ _ _ _) fun _ _ _ _ _ h => Tells.const ?_
  exact wordsLE_inj (n := 8) (w := 64) (by decide) hb hb' (congrArg V8.toList h)

end Hashes.Tiger
