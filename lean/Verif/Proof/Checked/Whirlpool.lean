import Verif.Checked.Whirlpool
import Verif.Proof.Rust
/- No check of Checked/Whirlpool.lean fails. -/
namespace Hashes.Whirlpool
open Rs

theorem length_C : C.length = 8 ∧ ∀ t ∈ C, t.length = 256 := by
  refine ⟨rfl, ?_⟩
  have : C.all (fun t => t.length == 256) = true := by decide +kernel
  intro t ht
  simpa using List.all_eq_true.mp this t ht

theorem lookC_eq (k : V8 W64) {j a : Nat} (hj : j < 8) (ha : a < 8) : lookC k.toList j a = some (look k j a) := by
  refine bind_ok (idx_lt [] (by rw [length_C.1]; exact hj)) <| bind_ok (idx_v8 k ha) <|
    bind_ok (shr_lt (by omega)) <| idx_lt 0 ?_
  rw [length_C.2 (C.getD j []) ?_]
  · rw [BitVec.toNat_and]
    exact Nat.lt_of_le_of_lt Nat.and_le_right (by decide)
  · rw [List.getD_eq_getElem?_getD, List.getElem?_eq_getElem (by rw [length_C.1]; exact hj)]
    exact List.getElem_mem _

theorem lineC_eq (k : V8 W64) {i : Nat} : lineC k.toList i = some (line k i) :=
  bind_ok (lookC_eq k (by decide) (Nat.mod_lt _ (by decide))) <| bind_ok (lookC_eq k (by decide) (Nat.mod_lt _ (by decide))) <|
  bind_ok (lookC_eq k (by decide) (Nat.mod_lt _ (by decide))) <| bind_ok (lookC_eq k (by decide) (Nat.mod_lt _ (by decide))) <|
  bind_ok (lookC_eq k (by decide) (Nat.mod_lt _ (by decide))) <| bind_ok (lookC_eq k (by decide) (Nat.mod_lt _ (by decide))) <|
  bind_ok (lookC_eq k (by decide) (Nat.mod_lt _ (by decide))) <| bind_ok (lookC_eq k (by decide) (Nat.mod_lt _ (by decide))) rfl

theorem roundC_eq (k s : V8 W64) {l : List W64} (hl : l.length = 8) {r : Nat} (hr : r < 10) :
    roundC (k.toList, s.toList, l) r =
      some ((roundBody (k, s) r).1.toList, (roundBody (k, s) r).2.toList, (roundBody (k, s) r).2.toList) := by
  refine bind_ok (fill_v8 (fun i => line k i ^^^ (if i = 0 then RC.getD r 0 else 0)) hl fun i l hi hl => ?_) <|
    bind_ok (fill_v8 (fun i => line s i ^^^ (roundBody (k, s) r).1.get i) (length_v8 _) fun i l hi hl => ?_) rfl
  · have e : rcC i r = some (if i = 0 then RC.getD r 0 else 0) := by
      unfold rcC
      by_cases h : i = 0
      · rw [if_pos h, if_pos h]; exact idx_lt 0 hr
      · rw [if_neg h, if_neg h]
    exact bind_ok (lineC_eq k) <| bind_ok e (upd_lt (by omega))
  · exact bind_ok (lineC_eq s) <| bind_ok (idx_v8 _ hi) (upd_lt (by omega))

theorem roundsC_eq (n : Nat) (hn : n ≤ 10) (k s : V8 W64) {l : List W64} (hl : l.length = 8) :
    ∃ l', loop n (k.toList, s.toList, l) roundC = some (((List.range n).foldl roundBody (k, s)).1.toList,
      ((List.range n).foldl roundBody (k, s)).2.toList, l') ∧ l'.length = 8 := by
  induction n with
  | zero => exact ⟨l, rfl, hl⟩
  | succ n ih =>
    obtain ⟨l', e, h'⟩ := ih (by omega)
    rw [loop_succ, e, Option.bind_some, roundC_eq _ _ h' (by omega), List.range_succ, List.foldl_append]
    exact ⟨_, rfl, length_v8 _⟩

theorem compressC_eq (state : V8 W64) {b : Bytes} (hb : b.length = 64) :
    compressC state.toList b = some (compress state b).toList := by
  obtain ⟨l', e, -⟩ := roundsC_eq 10 (by decide) state ((V8.ofFn (wordLE 64 b)).zip (· ^^^ ·) state)
    (l := List.replicate 8 (0 : W64)) rfl
  rw [compress]
  generalize hks : (List.range 10).foldl roundBody (state, (V8.ofFn (wordLE 64 b)).zip (· ^^^ ·) state) = ks at *
  have e0 : copy (List.replicate 8 (0 : W64)) 0 8 state.toList = some state.toList := by
    rw [copy_le (by decide) (by decide) rfl]; simp [V8.toList]
  have e1 : (loop 8 (List.replicate 8 (0 : W64)) fun s i => do
      upd s i ((← idx (V8.ofFn (wordLE 64 b)).toList i) ^^^ (← idx state.toList i))) =
      some ((V8.ofFn (wordLE 64 b)).zip (· ^^^ ·) state).toList :=
    fill_v8 (fun i => (V8.ofFn (wordLE 64 b)).get i ^^^ state.get i) rfl fun i l hi hl =>
      bind_ok (idx_v8 _ hi) <| bind_ok (idx_v8 _ hi) (upd_lt (by omega))
  exact bind_ok (load_v8_le rfl hb) <| bind_ok e0 <| bind_ok e1 <| bind_ok e <|
    modify_v8 (fun i x => x ^^^ (ks.2.get i ^^^ (V8.ofFn (wordLE 64 b)).get i)) fun i l hi hl e =>
      bind_ok e <| bind_ok (idx_v8 _ hi) <| bind_ok (idx_v8 _ hi) (upd_lt (by omega))

theorem adcAt_eq {l : List W64} {i : Nat} (hi : i < l.length) (b c : W64) :
    adcAt l i b c = some (l.set i (adc (l.getD i 0) b c).1, (adc (l.getD i 0) b c).2) := by
  have h1 := (l.getD i 0).isLt
  have h2 := b.isLt
  have h3 := c.isLt
  have e1 : ((l.getD i 0).setWidth 128).toNat = (l.getD i 0).toNat := BitVec.toNat_setWidth_of_le (by decide)
  have e2 : (b.setWidth 128).toNat = b.toNat := BitVec.toNat_setWidth_of_le (by decide)
  have e3 : (c.setWidth 128).toNat = c.toNat := BitVec.toNat_setWidth_of_le (by decide)
  exact bind_ok (idx_lt 0 hi) <| bind_ok (if_pos (by omega)) <| bind_ok (if_pos (by rw [BitVec.toNat_add]; omega)) <|
    bind_ok (upd_lt hi) <| bind_ok (shr_lt (by decide)) rfl

theorem updateLenC_eq (l : V4 W64) (len : W64) : updateLenC l.toList len = some (updateLen l len).toList :=
  bind_ok (adcAt_eq (by simp [V4.toList]) _ _) <| bind_ok (adcAt_eq (by simp [V4.toList]) _ _) <|
    bind_ok (adcAt_eq (by simp [V4.toList]) _ _) <| bind_ok (adcAt_eq (by simp [V4.toList]) _ _) rfl

end Hashes.Whirlpool
