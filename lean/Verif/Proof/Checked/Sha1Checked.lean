import Verif.Checked.Sha1Checked
import Verif.Proof.Rust
/- No run-time check is hit in the collision-detecting compression. -/
namespace Hashes.Sha1Checked
open Rs

/-! ### ubc_check -/

def Sh.inRange : Sh → Bool
  | .n => true
  | .r k => k < 32
  | .l k => k < 32

def Pair.inRange (p : Pair) : Bool := p.i < 80 && p.si.inRange && p.j < 80 && p.sj.inRange

def Stmt.inRange : Stmt → Bool
  | .sub _ x o s dvs => x.inRange && o < 32 && s < 32 && dvs.all (· < 32)
  | .neg _ x o s dvs => x.inRange && o < 32 && s < 32 && dvs.all (· < 32)
  | .shl dv x k => dv < 32 && x.inRange && k < 32
  | .notShr dv x k => dv < 32 && x.inRange && k < 32
  | .test dv cs => dv < 32 && cs.all fun c => c.1.inRange && c.2.1 < 32

theorem stmts_inRange : ubcStmts.all Stmt.inRange = true ∧ ubcFinal.all Stmt.inRange = true := by decide +kernel

theorem Sh.appC_eq (x : W32) {s : Sh} (h : s.inRange = true) : s.appC x = some (s.app x) := by
  cases s with
  | n => rfl
  | r k => exact shr_lt (by simpa [Sh.inRange] using h)
  | l k => exact shl_lt (by simpa [Sh.inRange] using h)

theorem Pair.evalC_eq (w : Arr 32 80) {p : Pair} (h : p.inRange = true) : p.evalC w.toList = some (p.eval w.get) := by
  simp only [Pair.inRange, Bool.and_eq_true, decide_eq_true_eq] at h
  exact bind_ok (idx_arr w h.1.1.1) <| bind_ok (Sh.appC_eq _ h.1.1.2) <| bind_ok (idx_arr w h.1.2) <| bind_ok (Sh.appC_eq _ h.2) rfl

theorem bitsOfC_eq {dvs : List Nat} (h : dvs.all (· < 32) = true) : bitsOfC dvs = some (bitsOf dvs) :=
  (foldlM_some (fun m d => m ||| (1#32 <<< d)) (fun _ => True) trivial fun d hd m _ =>
    ⟨bind_ok (shl_lt (by simpa using List.all_eq_true.1 h d hd)) rfl, trivial⟩).1

theorem anyC_eq (w : Arr 32 80) {cs : List (Pair × Nat × Bool)} (h : (cs.all fun c => c.1.inRange && c.2.1 < 32) = true) :
    anyC w.toList cs = some (cs.any fun c =>
        let y := c.1.eval w.get &&& (1#32 <<< c.2.1)
        if c.2.2 then y != 0 else y == 0) := by
  induction cs with
  | nil => rfl
  | cons c cs ih =>
    simp only [List.all_cons, Bool.and_eq_true, decide_eq_true_eq] at h
    refine bind_ok (Pair.evalC_eq w h.1.1) <| bind_ok (shl_lt h.1.2) ?_
    rw [List.any_cons, ih h.2]
    show (if (if c.2.2 then (c.1.eval w.get &&& 1#32 <<< c.2.1) != 0 else (c.1.eval w.get &&& 1#32 <<< c.2.1) == 0) = true then _ else _) =
      some ((if c.2.2 then (c.1.eval w.get &&& 1#32 <<< c.2.1) != 0 else (c.1.eval w.get &&& 1#32 <<< c.2.1) == 0) || _)
    generalize (if c.2.2 then (c.1.eval w.get &&& 1#32 <<< c.2.1) != 0 else (c.1.eval w.get &&& 1#32 <<< c.2.1) == 0) = q
    cases q <;> rfl

theorem guarded_eq (guard : Bool) (mask bits : W32) {term : Option W32} {t : W32} (h : term = some t) :
    guarded guard mask bits term = some (if guard = true ∧ mask &&& bits = 0 then mask else mask &&& (t ||| ~~~ bits)) := by
  unfold guarded
  split
  · rfl
  · rw [h]; rfl

theorem Stmt.runC_eq (w : Arr 32 80) (mask : W32) {s : Stmt} (h : s.inRange = true) : s.runC w.toList mask = some (s.run w.get mask) := by
  cases s with
  | sub guard x o s dvs =>
    simp only [Stmt.inRange, Bool.and_eq_true, decide_eq_true_eq] at h
    exact bind_ok (bitsOfC_eq h.2) <| guarded_eq _ _ _ <| bind_ok (Pair.evalC_eq w h.1.1.1) <| bind_ok (shr_lt h.1.1.2) <|
      bind_ok (shl_lt h.1.2) rfl
  | neg guard x o s dvs =>
    simp only [Stmt.inRange, Bool.and_eq_true, decide_eq_true_eq] at h
    exact bind_ok (bitsOfC_eq h.2) <| guarded_eq _ _ _ <| bind_ok (Pair.evalC_eq w h.1.1.1) <| bind_ok (shr_lt h.1.1.2) <|
      bind_ok (shl_lt h.1.2) rfl
  | shl dv x k =>
    simp only [Stmt.inRange, Bool.and_eq_true, decide_eq_true_eq] at h
    refine bind_ok (bitsOfC_eq (by simpa using h.1.1)) ?_
    refine (guarded_eq _ _ _ (bind_ok (Pair.evalC_eq w h.1.2) (shl_lt h.2))).trans ?_
    simp only [Stmt.run, true_and, ite_not]
  | notShr dv x k =>
    simp only [Stmt.inRange, Bool.and_eq_true, decide_eq_true_eq] at h
    refine bind_ok (bitsOfC_eq (by simpa using h.1.1)) ?_
    refine (guarded_eq _ _ _ (bind_ok (Pair.evalC_eq w h.1.2) (bind_ok (shr_lt h.2) rfl))).trans ?_
    simp only [Stmt.run, true_and, ite_not]
  | test dv cs =>
    simp only [Stmt.inRange, Bool.and_eq_true, decide_eq_true_eq] at h
    refine bind_ok (bitsOfC_eq (by simpa using h.1)) ?_
    unfold tested
    rw [anyC_eq w h.2, Stmt.run]
    split
    · rename_i e; rw [if_neg fun c => c.1 e]
    · rename_i e
      simp only [ne_eq, e, not_false_eq_true, true_and]
      rfl

theorem stmtsC_eq (w : Arr 32 80) {l : List Stmt} (h : l.all Stmt.inRange = true) (mask : W32) :
    l.foldlM (Stmt.runC w.toList) mask = some (l.foldl (Stmt.run w.get) mask) :=
  (foldlM_some (Stmt.run w.get) (fun _ => True) trivial fun s hs m _ => ⟨Stmt.runC_eq w m (List.all_eq_true.1 h s hs), trivial⟩).1

theorem ubcCheckC_eq (w : Arr 32 80) : ubcCheckC w.toList = some (ubcCheck w.get) := by
  refine bind_ok (stmtsC_eq w stmts_inRange.1 _) ?_
  unfold ubcCheck
  extract_lets mask0 mask
  change (if mask ≠ 0 then ubcFinal.foldlM (Stmt.runC w.toList) mask else some mask) =
    some (if mask ≠ 0 then ubcFinal.foldl (Stmt.run w.get) mask else mask)
  clear_value mask
  split
  · exact stmtsC_eq w stmts_inRange.2 _
  · rfl

/-! ### Steps -/

theorem mixC_eq (w : Arr 32 80) {t : Nat} (h : 16 ≤ t) (ht : t < 80) : mixC w.toList t = some (mix w t) :=
  bind_ok (usub_le (by omega)) <| bind_ok (idx_arr w (by omega)) <| bind_ok (usub_le (by omega)) <| bind_ok (idx_arr w (by omega)) <|
  bind_ok (usub_le (by omega)) <| bind_ok (idx_arr w (by omega)) <| bind_ok (usub_le (by omega)) <| bind_ok (idx_arr w (by omega)) rfl

theorem roundStep4C_eq (r : Rnd) (ra rb rc rd re : Nat) (w : Arr 32 80) {t : Nat} (ht : t + 4 ≤ 80) (v : V5 W32) :
    roundStep4C r ra rb rc rd re w.toList t v = some (roundStep4 r ra rb rc rd re w.get t v) :=
  bind_ok (idx_arr w (by omega)) <| bind_ok (idx_arr w (by omega)) <| bind_ok (idx_arr w (by omega)) <| bind_ok (idx_arr w (by omega)) rfl

theorem roundStepBw4C_eq (r : Rnd) (ra rb rc rd re : Nat) (w : Arr 32 80) {t : Nat} (h : 3 ≤ t) (ht : t < 80) (v : V5 W32) :
    roundStepBw4C r ra rb rc rd re w.toList t v = some (roundStepBw4 r ra rb rc rd re w.get t v) :=
  bind_ok (idx_arr w (by omega)) <| bind_ok (usub_le (by omega)) <| bind_ok (idx_arr w (by omega)) <| bind_ok (usub_le (by omega)) <|
  bind_ok (idx_arr w (by omega)) <| bind_ok (usub_le (by omega)) <| bind_ok (idx_arr w (by omega)) rfl

/-- The list form of a state. -/
def toC (x : Work) : WorkC := (x.1, x.2.toList)

theorem toC_fst (x : Work) : (toC x).1 = x.1 := rfl
theorem toC_snd (x : Work) : (toC x).2 = x.2.toList := rfl

theorem fullStepC_eq (r : Rnd) (ra rb rc rd re : Nat) {t : Nat} (h : 16 ≤ t) (ht : t < 80) (x : Work) :
    fullStepC r ra rb rc rd re t (toC x) = some (toC (fullStep r ra rb rc rd re t x)) :=
  bind_ok (mixC_eq x.2 h ht) <| bind_ok (upd_arr x.2 _ ht) <| bind_ok (idx_arr _ ht) rfl

theorem expand4C_eq (r : Rnd) (ra rb rc rd re : Nat) {t : Nat} (h : 16 ≤ t) (ht : t + 4 ≤ 80) (x : Work) :
    expand4C r ra rb rc rd re t (toC x) = some (toC (expand4 r ra rb rc rd re t x)) :=
  bind_ok (mixC_eq x.2 h (by omega)) <| bind_ok (upd_arr x.2 _ (by omega)) <|
  bind_ok (mixC_eq _ (by omega) (by omega)) <| bind_ok (upd_arr _ _ (by omega)) <|
  bind_ok (mixC_eq _ (by omega) (by omega)) <| bind_ok (upd_arr _ _ (by omega)) <|
  bind_ok (mixC_eq _ (by omega) (by omega)) <| bind_ok (upd_arr _ _ (by omega)) <| bind_ok (roundStep4C_eq _ _ _ _ _ _ _ ht _) rfl

theorem load4C_eq (ra rb rc rd re : Nat) (m : Arr 32 16) {t : Nat} (ht : t + 4 ≤ 16) (x : Work) :
    load4C ra rb rc rd re m.toList t (toC x) = some (toC (load4 ra rb rc rd re m.get t x)) := by
  have hm : m.toList.length = 16 := m.2
  have hw : x.2.toList.length = 80 := x.2.2
  have e : x.2.toList.take t ++ (m.toList.drop t).take (t + 4 - t) ++ x.2.toList.drop (t + 4) =
      ((((x.2.set t (m.get t)).set (t + 1) (m.get (t + 1))).set (t + 2) (m.get (t + 2))).set (t + 3) (m.get (t + 3))).toList := by
    refine ext_getD 0 (by simp only [Arr.length_toList, List.length_append, List.length_take, List.length_drop]; omega) fun i hi => ?_
    simp only [List.length_append, List.length_take, List.length_drop] at hi
    show _ = (((((x.2.toList.set t (m.get t)).set (t + 1) (m.get (t + 1))).set (t + 2) (m.get (t + 2))).set (t + 3) (m.get (t + 3)))).getD i 0
    rw [getD_append, getD_append, getD_take, getD_take, getD_drop, getD_drop]
    simp only [getD_set, List.length_set, List.length_append, List.length_take, List.length_drop, hm, hw]
    have g (j : Nat) : m.get j = m.toList.getD j 0 := rfl
    simp only [g]
    by_cases h0 : i < t
    · rw [if_pos (by omega), if_pos (by omega), if_pos h0, if_neg (by omega), if_neg (by omega), if_neg (by omega), if_neg (by omega)]
    · by_cases h4 : i < t + 4
      · rw [if_pos (by omega), if_neg (by omega), if_pos (by omega)]
        have : i = t ∨ i = t + 1 ∨ i = t + 2 ∨ i = t + 3 := by omega
        rw [show t + (i - min t 80) = i by omega]
        rcases this with rfl | rfl | rfl | rfl
        · rw [if_neg (by omega), if_neg (by omega), if_neg (by omega), if_pos (by omega)]
        · rw [if_neg (by omega), if_neg (by omega), if_pos (by omega)]
        · rw [if_neg (by omega), if_pos (by omega)]
        · rw [if_pos (by omega)]
      · rw [if_neg (by omega), if_neg (by omega), if_neg (by omega), if_neg (by omega), if_neg (by omega)]
        congr 1; omega
  refine bind_ok (slice_le (by omega) (by omega)) <| bind_ok ((copy_le (by omega) (by show _ ≤ x.2.toList.length; omega) (by simp; omega)).trans (congrArg some e)) <|
    bind_ok (roundStep4C_eq _ _ _ _ _ _ _ (by omega) _) rfl

/-! ### Compression functions -/

theorem compressionWC_eq (ihv : V5 W32) (w : Arr 32 80) : compressionWC ihv w.toList = some (compressionW ihv w.get) :=
  bind_ok (roundStep4C_eq _ _ _ _ _ _ _ (by decide) _) <|
  bind_ok (roundStep4C_eq _ _ _ _ _ _ _ (by decide) _) <|
  bind_ok (roundStep4C_eq _ _ _ _ _ _ _ (by decide) _) <|
  bind_ok (roundStep4C_eq _ _ _ _ _ _ _ (by decide) _) <|
  bind_ok (roundStep4C_eq _ _ _ _ _ _ _ (by decide) _) <|
  bind_ok (roundStep4C_eq _ _ _ _ _ _ _ (by decide) _) <|
  bind_ok (roundStep4C_eq _ _ _ _ _ _ _ (by decide) _) <|
  bind_ok (roundStep4C_eq _ _ _ _ _ _ _ (by decide) _) <|
  bind_ok (roundStep4C_eq _ _ _ _ _ _ _ (by decide) _) <|
  bind_ok (roundStep4C_eq _ _ _ _ _ _ _ (by decide) _) <|
  bind_ok (roundStep4C_eq _ _ _ _ _ _ _ (by decide) _) <|
  bind_ok (roundStep4C_eq _ _ _ _ _ _ _ (by decide) _) <|
  bind_ok (roundStep4C_eq _ _ _ _ _ _ _ (by decide) _) <|
  bind_ok (roundStep4C_eq _ _ _ _ _ _ _ (by decide) _) <|
  bind_ok (roundStep4C_eq _ _ _ _ _ _ _ (by decide) _) <|
  bind_ok (roundStep4C_eq _ _ _ _ _ _ _ (by decide) _) <|
  bind_ok (roundStep4C_eq _ _ _ _ _ _ _ (by decide) _) <|
  bind_ok (roundStep4C_eq _ _ _ _ _ _ _ (by decide) _) <|
  bind_ok (roundStep4C_eq _ _ _ _ _ _ _ (by decide) _) <|
  bind_ok (roundStep4C_eq _ _ _ _ _ _ _ (by decide) _) rfl

def States.toC (x : States) : StatesC := ⟨x.ihv, x.w.toList, x.state58, x.state65⟩

theorem compressionStatesC_eq (ihv : V5 W32) (m : Arr 32 16) (w : Arr 32 80) :
    compressionStatesC ihv m.toList w.toList = some (compressionStates ihv m.get w).toC := by
  unfold compressionStatesC compressionStates
  lift_lets
  intro y x0 x1 x2 x3 x4 x5 x6 x7 x8 x9 x10 x11 x12 x13 x14 x15 x16 state58 x17 x18 x19 x20 state65 x21 x22 x23 x24 x25 x26
  refine bind_ok (show load4C a b c d e m.toList 0 y = some (toC x1) from load4C_eq _ _ _ _ _ _ (t := 0) (by decide) x0) ?_
  refine bind_ok (show load4C b c d e a m.toList 4 (toC x1) = some (toC x2) from load4C_eq _ _ _ _ _ _ (by decide) _) ?_
  refine bind_ok (show load4C c d e a b m.toList 8 (toC x2) = some (toC x3) from load4C_eq _ _ _ _ _ _ (by decide) _) ?_
  refine bind_ok (show load4C d e a b c m.toList 12 (toC x3) = some (toC x4) from load4C_eq _ _ _ _ _ _ (by decide) _) ?_
  refine bind_ok (show expand4C rnd1 e a b c d 16 (toC x4) = some (toC x5) from expand4C_eq _ _ _ _ _ _ (by decide) (by decide) _) ?_
  refine bind_ok (show expand4C rnd2 a b c d e 20 (toC x5) = some (toC x6) from expand4C_eq _ _ _ _ _ _ (by decide) (by decide) _) ?_
  refine bind_ok (show expand4C rnd2 b c d e a 24 (toC x6) = some (toC x7) from expand4C_eq _ _ _ _ _ _ (by decide) (by decide) _) ?_
  refine bind_ok (show expand4C rnd2 c d e a b 28 (toC x7) = some (toC x8) from expand4C_eq _ _ _ _ _ _ (by decide) (by decide) _) ?_
  refine bind_ok (show expand4C rnd2 d e a b c 32 (toC x8) = some (toC x9) from expand4C_eq _ _ _ _ _ _ (by decide) (by decide) _) ?_
  refine bind_ok (show expand4C rnd2 e a b c d 36 (toC x9) = some (toC x10) from expand4C_eq _ _ _ _ _ _ (by decide) (by decide) _) ?_
  refine bind_ok (show expand4C rnd3 a b c d e 40 (toC x10) = some (toC x11) from expand4C_eq _ _ _ _ _ _ (by decide) (by decide) _) ?_
  refine bind_ok (show expand4C rnd3 b c d e a 44 (toC x11) = some (toC x12) from expand4C_eq _ _ _ _ _ _ (by decide) (by decide) _) ?_
  refine bind_ok (show expand4C rnd3 c d e a b 48 (toC x12) = some (toC x13) from expand4C_eq _ _ _ _ _ _ (by decide) (by decide) _) ?_
  refine bind_ok (show expand4C rnd3 d e a b c 52 (toC x13) = some (toC x14) from expand4C_eq _ _ _ _ _ _ (by decide) (by decide) _) ?_
  refine bind_ok (show fullStepC rnd3 e a b c d 56 (toC x14) = some (toC x15) from fullStepC_eq _ _ _ _ _ _ (by decide) (by decide) _) ?_
  refine bind_ok (show fullStepC rnd3 d e a b c 57 (toC x15) = some (toC x16) from fullStepC_eq _ _ _ _ _ _ (by decide) (by decide) _) ?_
  refine bind_ok (show fullStepC rnd3 c d e a b 58 (toC x16) = some (toC x17) from fullStepC_eq _ _ _ _ _ _ (by decide) (by decide) _) ?_
  refine bind_ok (show fullStepC rnd3 b c d e a 59 (toC x17) = some (toC x18) from fullStepC_eq _ _ _ _ _ _ (by decide) (by decide) _) ?_
  refine bind_ok (show expand4C rnd4 a b c d e 60 (toC x18) = some (toC x19) from expand4C_eq _ _ _ _ _ _ (by decide) (by decide) _) ?_
  refine bind_ok (show fullStepC rnd4 b c d e a 64 (toC x19) = some (toC x20) from fullStepC_eq _ _ _ _ _ _ (by decide) (by decide) _) ?_
  refine bind_ok (show fullStepC rnd4 a b c d e 65 (toC x20) = some (toC x21) from fullStepC_eq _ _ _ _ _ _ (by decide) (by decide) _) ?_
  refine bind_ok (show fullStepC rnd4 e a b c d 66 (toC x21) = some (toC x22) from fullStepC_eq _ _ _ _ _ _ (by decide) (by decide) _) ?_
  refine bind_ok (show fullStepC rnd4 d e a b c 67 (toC x22) = some (toC x23) from fullStepC_eq _ _ _ _ _ _ (by decide) (by decide) _) ?_
  refine bind_ok (show expand4C rnd4 c d e a b 68 (toC x23) = some (toC x24) from expand4C_eq _ _ _ _ _ _ (by decide) (by decide) _) ?_
  refine bind_ok (show expand4C rnd4 d e a b c 72 (toC x24) = some (toC x25) from expand4C_eq _ _ _ _ _ _ (by decide) (by decide) _) ?_
  refine bind_ok (show expand4C rnd4 e a b c d 76 (toC x25) = some (toC x26) from expand4C_eq _ _ _ _ _ _ (by decide) (by decide) _) ?_
  clear_value x26 x25 x24 x23 x22 x21 x20 x19 x18 x17 x16 x15 x14 x13 x12 x11 x10 x9 x8 x7 x6 x5 x4 x3 x2 x1 x0
  rfl

theorem recompressFast58C_eq (me2 : Arr 32 80) (state : V5 W32) : recompressFast58C me2.toList state = some (recompressFast58 me2.get state) :=
  bind_ok (idx_arr _ (by decide)) <|
  bind_ok (idx_arr _ (by decide)) <|
  bind_ok (roundStepBw4C_eq _ _ _ _ _ _ _ (by decide) (by decide) _) <|
  bind_ok (roundStepBw4C_eq _ _ _ _ _ _ _ (by decide) (by decide) _) <|
  bind_ok (roundStepBw4C_eq _ _ _ _ _ _ _ (by decide) (by decide) _) <|
  bind_ok (roundStepBw4C_eq _ _ _ _ _ _ _ (by decide) (by decide) _) <|
  bind_ok (roundStepBw4C_eq _ _ _ _ _ _ _ (by decide) (by decide) _) <|
  bind_ok (roundStepBw4C_eq _ _ _ _ _ _ _ (by decide) (by decide) _) <|
  bind_ok (roundStepBw4C_eq _ _ _ _ _ _ _ (by decide) (by decide) _) <|
  bind_ok (roundStepBw4C_eq _ _ _ _ _ _ _ (by decide) (by decide) _) <|
  bind_ok (roundStepBw4C_eq _ _ _ _ _ _ _ (by decide) (by decide) _) <|
  bind_ok (roundStepBw4C_eq _ _ _ _ _ _ _ (by decide) (by decide) _) <|
  bind_ok (roundStepBw4C_eq _ _ _ _ _ _ _ (by decide) (by decide) _) <|
  bind_ok (roundStepBw4C_eq _ _ _ _ _ _ _ (by decide) (by decide) _) <|
  bind_ok (roundStepBw4C_eq _ _ _ _ _ _ _ (by decide) (by decide) _) <|
  bind_ok (roundStepBw4C_eq _ _ _ _ _ _ _ (by decide) (by decide) _) <|
  bind_ok (idx_arr _ (by decide)) <|
  bind_ok (idx_arr _ (by decide)) <|
  bind_ok (roundStep4C_eq _ _ _ _ _ _ _ (by decide) _) <|
  bind_ok (roundStep4C_eq _ _ _ _ _ _ _ (by decide) _) <|
  bind_ok (roundStep4C_eq _ _ _ _ _ _ _ (by decide) _) <|
  bind_ok (roundStep4C_eq _ _ _ _ _ _ _ (by decide) _) <|
  bind_ok (roundStep4C_eq _ _ _ _ _ _ _ (by decide) _) rfl

theorem recompressFast65C_eq (me2 : Arr 32 80) (state : V5 W32) : recompressFast65C me2.toList state = some (recompressFast65 me2.get state) :=
  bind_ok (idx_arr _ (by decide)) <|
  bind_ok (roundStepBw4C_eq _ _ _ _ _ _ _ (by decide) (by decide) _) <|
  bind_ok (roundStepBw4C_eq _ _ _ _ _ _ _ (by decide) (by decide) _) <|
  bind_ok (roundStepBw4C_eq _ _ _ _ _ _ _ (by decide) (by decide) _) <|
  bind_ok (roundStepBw4C_eq _ _ _ _ _ _ _ (by decide) (by decide) _) <|
  bind_ok (roundStepBw4C_eq _ _ _ _ _ _ _ (by decide) (by decide) _) <|
  bind_ok (roundStepBw4C_eq _ _ _ _ _ _ _ (by decide) (by decide) _) <|
  bind_ok (roundStepBw4C_eq _ _ _ _ _ _ _ (by decide) (by decide) _) <|
  bind_ok (roundStepBw4C_eq _ _ _ _ _ _ _ (by decide) (by decide) _) <|
  bind_ok (roundStepBw4C_eq _ _ _ _ _ _ _ (by decide) (by decide) _) <|
  bind_ok (roundStepBw4C_eq _ _ _ _ _ _ _ (by decide) (by decide) _) <|
  bind_ok (roundStepBw4C_eq _ _ _ _ _ _ _ (by decide) (by decide) _) <|
  bind_ok (roundStepBw4C_eq _ _ _ _ _ _ _ (by decide) (by decide) _) <|
  bind_ok (roundStepBw4C_eq _ _ _ _ _ _ _ (by decide) (by decide) _) <|
  bind_ok (roundStepBw4C_eq _ _ _ _ _ _ _ (by decide) (by decide) _) <|
  bind_ok (roundStepBw4C_eq _ _ _ _ _ _ _ (by decide) (by decide) _) <|
  bind_ok (roundStepBw4C_eq _ _ _ _ _ _ _ (by decide) (by decide) _) <|
  bind_ok (idx_arr _ (by decide)) <|
  bind_ok (idx_arr _ (by decide)) <|
  bind_ok (idx_arr _ (by decide)) <|
  bind_ok (roundStep4C_eq _ _ _ _ _ _ _ (by decide) _) <|
  bind_ok (roundStep4C_eq _ _ _ _ _ _ _ (by decide) _) <|
  bind_ok (roundStep4C_eq _ _ _ _ _ _ _ (by decide) _) rfl

theorem recompressionStepC_eq (step : Testt) (me2 : Arr 32 80) (state : V5 W32) :
    recompressionStepC step me2.toList state = some (recompressionStep step me2.get state) := by
  cases step
  · exact recompressFast58C_eq me2 state
  · exact recompressFast65C_eq me2 state

/-! ### Detection -/

theorem xorInto_eq {m2 m1 dm : List W32} (h1 : m1.length = m2.length) (h2 : dm.length = m2.length) :
    xorInto m2 m1 dm = (List.range m2.length).map fun i => m1.getD i 0 ^^^ dm.getD i 0 := by
  induction m2 generalizing m1 dm with
  | nil => unfold xorInto; rfl
  | cons x m2 ih =>
    match m1, dm, h1, h2 with
    | y :: m1, z :: dm, h1, h2 =>
      rw [xorInto, ih (by simpa using h1) (by simpa using h2), List.length_cons, List.range_succ_eq_map, List.map_cons, List.map_map]
      rfl

theorem arr80_eq (a : Arr 32 80) : arr80 a.toList = some a := by
  rw [arr80, dif_pos (Arr.length_toList a)]; rfl

theorem safeC_eq (state : V5 W32) (ctx : Detection) :
    safeC state ctx = some (if ctx.safeHash then compressionW (compressionW state ctx.m1.get) ctx.m1.get else state) := by
  unfold safeC
  split
  · exact bind_ok (compressionWC_eq _ _) (compressionWC_eq _ _)
  · rfl

theorem dvs_ok : (SHA1_DVS.all fun dv => dv.maskb < 32 && dv.dm.length == 80) = true := by decide +kernel

/-- One vector, without checks. -/
def hit (dv : Info) (state : V5 W32) (ctx : Detection) : Bool × V5 W32 × Detection :=
  let m2 : Arr 32 80 := Arr.ofFn 80 fun i => ctx.m1.get i ^^^ dv.dm.getD i 0
  let ctx := { ctx with m2 := m2 }
  let r := recompressionStep dv.testt m2.get (ctx.saved dv.testt)
  let ctx := { ctx with ihv2 := r.1 }
  if xor5 r.2 state = 0 ∨ (ctx.reducedRoundCollision = true ∧ xor5 ctx.ihv1 ctx.ihv2 = 0) then
    let ctx := { ctx with foundCollision := true }
    (true, if ctx.safeHash then compressionW (compressionW state ctx.m1.get) ctx.m1.get else state, ctx)
  else (false, state, ctx)

theorem hitC_eq {dv : Info} (h : dv.dm.length = 80) (state : V5 W32) (ctx : Detection) : hitC dv state ctx = some (hit dv state ctx) := by
  have e : xorInto ctx.m2.toList ctx.m1.toList dv.dm = (Arr.ofFn 80 fun i => ctx.m1.get i ^^^ dv.dm.getD i 0 : Arr 32 80).toList := by
    rw [xorInto_eq (by simp) (by simp [h]), Arr.length_toList]; rfl
  refine bind_ok ((congrArg arr80 e).trans (arr80_eq _)) <| bind_ok (recompressionStepC_eq _ _ _) ?_
  unfold hit
  extract_lets f f' m2 c r c1 c2
  change (if xor5 r.2 state = 0 ∨ (c1.reducedRoundCollision = true ∧ xor5 c1.ihv1 c1.ihv2 = 0) then
    (safeC state c2 >>= fun state => pure (true, state, c2)) else pure (false, state, c1)) = _
  split
  · exact bind_ok (safeC_eq _ _) rfl
  · rfl

theorem tryDvs_cons (mask : W32) (dv : Info) (l : List Info) (state : V5 W32) (ctx : Detection) :
    tryDvs mask (dv :: l) state ctx = if mask &&& (1#32 <<< dv.maskb) ≠ 0 then
      (if (hit dv state ctx).1 then (hit dv state ctx).2 else tryDvs mask l (hit dv state ctx).2.1 (hit dv state ctx).2.2)
      else tryDvs mask l state ctx := by
  rw [tryDvs]
  unfold hit
  extract_lets m2 c r c1 t c2
  split
  · by_cases hc : xor5 r.2 state = 0 ∨ (c1.reducedRoundCollision = true ∧ xor5 c1.ihv1 c1.ihv2 = 0)
    · rw [if_pos hc, if_pos hc, if_pos rfl]
      split <;> rfl
    · rw [if_neg hc, if_neg hc]; rfl
  · rfl

theorem tryDvsC_eq (mask : W32) {l : List Info} (h : (l.all fun dv => dv.maskb < 32 && dv.dm.length == 80) = true) (state : V5 W32)
    (ctx : Detection) : tryDvsC mask l state ctx = some (tryDvs mask l state ctx) := by
  induction l generalizing state ctx with
  | nil => rfl
  | cons dv l ih =>
    simp only [List.all_cons, Bool.and_eq_true, decide_eq_true_eq, beq_iff_eq] at h
    refine bind_ok (shl_lt h.1.1) ?_
    rw [tryDvs_cons]
    split
    · refine bind_ok (hitC_eq h.1.2 state ctx) ?_
      split
      · rfl
      · exact ih h.2 _ _
    · exact ih h.2 _ _

theorem maskC_eq (ctx : Detection) : maskC ctx = some (if ctx.ubcCheck then ubcCheck ctx.m1.get else 0xFFFFFFFF#32) := by
  unfold maskC
  split
  · exact ubcCheckC_eq _
  · rfl

theorem compress1C_eq (x : V5 W32 × Detection) {block : Bytes} (h : block.length = 64) : compress1C x block = some (compress1 x block) := by
  have e : load (List.replicate 16 0) block 4 (fromBe 32) = some (Arr.ofFn 16 (wordBE 32 block) : Arr 32 16).toList :=
    load_be (w := 32) (n := 16) (by decide) (List.length_replicate ..) h
  have g : ∀ i < 16, (Arr.ofFn 16 (wordBE 32 block) : Arr 32 16).get i = wordBE 32 block i := fun i hi => Arr.get_ofFn _ hi
  have e2 : compressionStates x.1 (Arr.ofFn 16 (wordBE 32 block) : Arr 32 16).get x.2.m1 = compressionStates x.1 (wordBE 32 block) x.2.m1 := by
    unfold compressionStates load4
    simp only [g, Nat.reduceAdd, Nat.reduceLT]
  have e3 : compressionStatesC x.1 (Arr.ofFn 16 (wordBE 32 block) : Arr 32 16).toList x.2.m1.toList = some (compressionStates x.1 (wordBE 32 block) x.2.m1).toC :=
    (compressionStatesC_eq _ _ _).trans (congrArg (fun r => some (States.toC r)) e2)
  have h := dvs_ok
  have em := maskC_eq
  unfold compress1C compress1
  generalize ubcCheck = U at em ⊢
  dsimp only
  generalize SHA1_DVS = dvs at h ⊢
  generalize compressionStates x.1 (wordBE 32 block) x.2.m1 = r at e3 ⊢
  have tail : ∀ (mask : W32) (s : V5 W32) (ctx : Detection), (if mask ≠ 0 then tryDvsC mask dvs s ctx else some (s, ctx)) =
      some (if mask ≠ 0 then tryDvs mask dvs s ctx else (s, ctx)) := by
    intro mask s ctx
    split
    · exact tryDvsC_eq _ h _ _
    · rfl
  refine bind_ok e <| bind_ok e3 <| bind_ok (arr80_eq r.w) <| bind_ok (em _) ?_
  dsimp only [States.toC]
  exact tail _ _ _

theorem compressC_eq (x : V5 W32 × Detection) (blks : List Bytes) (h : ∀ b ∈ blks, b.length = 64) :
    compressC x blks = some (compress x blks) :=
  (foldlM_some compress1 (fun _ => True) trivial fun b hb y _ => ⟨compress1C_eq y (h b hb), trivial⟩).1

theorem putLenC_eq {buffer : Bytes} (h : buffer.length = 64) (total : W64) : putLenC buffer total =
    some ((((((((buffer.set 56 ((total >>> 56).setWidth 8)).set 57 ((total >>> 48).setWidth 8)).set 58 ((total >>> 40).setWidth 8)).set 59
      ((total >>> 32).setWidth 8)).set 60 ((total >>> 24).setWidth 8)).set 61 ((total >>> 16).setWidth 8)).set 62
      ((total >>> 8).setWidth 8)).set 63 (total.setWidth 8)) :=
  bind_ok (shr_lt (by decide)) <| bind_ok (upd_lt (by simp [h])) <| bind_ok (shr_lt (by decide)) <| bind_ok (upd_lt (by simp [h])) <|
  bind_ok (shr_lt (by decide)) <| bind_ok (upd_lt (by simp [h])) <| bind_ok (shr_lt (by decide)) <| bind_ok (upd_lt (by simp [h])) <|
  bind_ok (shr_lt (by decide)) <| bind_ok (upd_lt (by simp [h])) <| bind_ok (shr_lt (by decide)) <| bind_ok (upd_lt (by simp [h])) <|
  bind_ok (shr_lt (by decide)) <| bind_ok (upd_lt (by simp [h])) <| upd_lt (by simp [h])

/-- The two cases of `finalize`, without checks. -/
def pad (x : V5 W32 × Detection) (buffer : Bytes) (last : Nat) : (V5 W32 × Detection) × Bytes :=
  if 56 ≤ last then
    (compress x [overwrite buffer last ((SHA1_PADDING.take (120 - last)).take (64 - last))],
      overwrite (overwrite buffer last ((SHA1_PADDING.take (120 - last)).take (64 - last))) 0 ((SHA1_PADDING.take (120 - last)).drop (64 - last)))
  else (x, overwrite buffer last (SHA1_PADDING.take (56 - last)))

theorem overwrite_length {dst src : Bytes} {off : Nat} (h : off + src.length ≤ dst.length) : (overwrite dst off src).length = dst.length := by
  simp [overwrite]; omega

theorem copy_over {dst src : Bytes} {off j : Nat} (e : off + src.length = j) (h : j ≤ dst.length) : copy dst off j src = some (overwrite dst off src) := by
  rw [copy_le (by omega) h (by omega), ← e]; rfl

theorem slice_to {a : Bytes} {j : Nat} (h : j ≤ a.length) : slice a 0 j = some (a.take j) := slice_le (Nat.zero_le _) h

theorem slice_from {a : Bytes} {i : Nat} (h : i ≤ a.length) : slice a i a.length = some (a.drop i) := by
  rw [slice_le h (Nat.le_refl _), List.take_of_length_le (by simp)]

theorem add_lt {w : Nat} {x y : BitVec w} (h : x.toNat + y.toNat < 2 ^ w) : Rs.add x y = some (x + y) := if_pos h

theorem padC_eq (x : V5 W32 × Detection) {buffer : Bytes} {last : Nat} (hb : buffer.length = 64) (hl : last ≤ 64) :
    padC x buffer last (64 - last) = some (pad x buffer last) ∧ (pad x buffer last).2.length = 64 := by
  have hp : SHA1_PADDING.length = 64 := rfl
  unfold padC pad
  by_cases h : 56 ≤ last
  · rw [if_pos h, if_pos h]
    generalize SHA1_PADDING = P at hp
    have l0 : ((P.take (120 - last)).take (64 - last)).length = 64 - last := by simp [hp]; omega
    have l1 : ((P.take (120 - last)).drop (64 - last)).length = 56 := by simp [hp]; omega
    have l2 : (overwrite buffer last ((P.take (120 - last)).take (64 - last))).length = 64 := by
      rw [overwrite_length (by omega), hb]
    refine ⟨?_, by simp only; rw [overwrite_length (by omega), l2]⟩
    exact bind_ok (usub_le (by omega)) <| bind_ok (slice_to (by omega)) <| bind_ok (slice_to (by simp [hp]; omega)) <|
      bind_ok (slice_from (by simp [hp]; omega)) <| bind_ok (copy_over (by omega) (by omega)) <|
      bind_ok (compressC_eq _ _ (by simpa using l2)) <| bind_ok (copy_over (by omega) (by omega)) rfl
  · rw [if_neg h, if_neg h]
    have l0 : (SHA1_PADDING.take (56 - last)).length = 56 - last := by simp [hp]; omega
    refine ⟨?_, by simp only; rw [overwrite_length (by omega), hb]⟩
    exact bind_ok (usub_le (by omega)) <| bind_ok (slice_to (by omega)) <| bind_ok (copy_over (by omega) (by omega)) rfl

theorem finalizeC_eq (x : V5 W32 × Detection) {total : W64} {lastBlock : Bytes} (h : lastBlock.length ≤ 64)
    (ht : total.toNat + lastBlock.length < 2 ^ 64) : finalizeC x total lastBlock = some (finalizeChecked x total lastBlock) := by
  have lb : (overwrite (List.replicate 64 0) 0 lastBlock).length = 64 := overwrite_length (by simpa using h)
  obtain ⟨e, l⟩ := padC_eq x lb h
  refine bind_ok (add_lt (by simp; omega)) <| bind_ok (copy_over (by omega) (by simpa using h)) <| bind_ok (usub_le h) <|
    bind_ok e <| bind_ok (shl_lt (by decide)) <| bind_ok (putLenC_eq l _) <| (compressC_eq _ _ (by
      intro b hb; rw [List.mem_singleton] at hb; rw [hb]; simp only [List.length_set]; exact l)).trans ?_
  rfl

end Hashes.Sha1Checked
