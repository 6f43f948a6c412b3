import Verif.Model.Sha1Checked
import Verif.Spec.Ubc
/- sha1-checked: the mask arithmetic of `ubc_check` evaluates the bit conditions of each disturbance vector. -/
namespace Hashes.Sha1Checked
open Spec.Ubc

/-- Bit of the unshifted word that ends up at bit `p`. -/
def Sh.bit (p : Nat) : Sh → Nat
  | .n => p
  | .r k => p + k
  | .l k => p - k

/-- The shift keeps that bit. -/
def Sh.ok (p : Nat) : Sh → Bool
  | .l k => decide (k ≤ p)
  | _ => true

theorem Sh.app_bit (x : W32) (s : Sh) {p : Nat} (hp : p < 32) (h : s.ok p = true) :
    (s.app x).getLsbD p = x.getLsbD (s.bit p) := by
  cases s with
  | n => rfl
  | r k => simp [Sh.app, Sh.bit, Nat.add_comm]
  | l k =>
    have : k ≤ p := by simpa [Sh.ok] using h
    have h' : ¬ p < k := by omega
    simp [Sh.app, Sh.bit, hp, h', BitVec.getLsbD_eq_getElem (show p - k < 32 by omega)]

/-- The condition "bit `p` of the pair expression is `par`". -/
def Pair.cond (x : Pair) (p : Nat) (par : Bool) : Cond := (x.i, x.si.bit p, x.j, x.sj.bit p, par)
def Pair.ok (x : Pair) (p : Nat) : Bool := decide (p < 32) && x.si.ok p && x.sj.ok p

theorem Pair.holds_cond (w : Nat → W32) (x : Pair) {p : Nat} (par : Bool) (h : x.ok p = true) :
    holds w (x.cond p par) = ((x.eval w).getLsbD p == par) := by
  simp only [Pair.ok, Bool.and_eq_true, decide_eq_true_eq] at h
  simp only [holds, Pair.cond, Pair.eval, BitVec.getLsbD_xor, Sh.app_bit _ _ h.1.1 h.1.2, Sh.app_bit _ _ h.1.1 h.2]

theorem bitsOf_bit (dvs : List Nat) {k : Nat} (hk : k < 32) : (bitsOf dvs).getLsbD k = decide (k ∈ dvs) := by
  have : ∀ (l : List Nat) (m : W32), (l.foldl (fun m d => m ||| (1#32 <<< d)) m).getLsbD k =
      (m.getLsbD k || decide (k ∈ l)) := by
    intro l
    induction l with
    | nil => intro m; simp
    | cons d l ih =>
      intro m
      rw [List.foldl_cons, ih]
      have : (1#32 <<< d).getLsbD k = decide (k = d) := by
        simp [hk]
        by_cases h : k = d
        · simp [h]
        · simp [h]
          intro h2
          omega
      simp only [BitVec.getLsbD_or, this, List.mem_cons, Bool.decide_or, Bool.or_assoc]
  rw [bitsOf, this]
  simp

/-- Conditions that a statement imposes on vector `k`. -/
def Stmt.conds (k : Nat) : Stmt → List Cond
  | .sub _ x o s dvs => if k ∈ dvs then [x.cond (o + s) false] else []
  | .neg _ x o s dvs => if k ∈ dvs then [x.cond (o + s) true] else []
  | .shl dv x m => if k = dv then [x.cond (dv - m) true] else []
  | .notShr dv x m => if k = dv then [x.cond (dv + m) false] else []
  | .test dv cs => if k = dv then cs.map (fun c => c.1.cond c.2.1 (!c.2.2)) else []

/-- All shifts stay in range, and a borrow out of bit `s` reaches every listed vector. -/
def Stmt.ok : Stmt → Bool
  | .sub _ x o s dvs => x.ok (o + s) && dvs.all fun d => decide (s ≤ d ∧ d < 32)
  | .neg _ x o s dvs => x.ok (o + s) && dvs.all fun d => decide (s ≤ d ∧ d < 32)
  | .shl dv x m => decide (m ≤ dv ∧ dv < 32) && x.ok (dv - m)
  | .notShr dv x m => decide (dv < 32) && x.ok (dv + m)
  | .test dv cs => decide (dv < 32) && cs.all fun c => c.1.ok c.2.1

theorem shiftOne_bit (s k : Nat) (hk : k < 32) : (1#32 <<< s).getLsbD k = decide (k = s) := by
  have := bitsOf_bit [s] hk
  simpa [bitsOf] using this

theorem and_one (x : W32) {s : Nat} (hs : s < 32) :
    x &&& (1#32 <<< s) = if x.getLsbD s then 1#32 <<< s else 0#32 := by
  apply BitVec.eq_of_getLsbD_eq
  intro i hi
  rw [BitVec.getLsbD_and, shiftOne_bit s i hi]
  by_cases h : i = s
  · subst h
    cases hx : x.getLsbD i
    · simp
    · simp only [Bool.true_and, if_true, shiftOne_bit _ _ hi]
  · cases hx : x.getLsbD s
    · simp [h]
    · simp only [if_true, shiftOne_bit _ _ hi, h, decide_false, Bool.and_false]

/-- `-(1 << s)` has every bit from `s` upwards set. -/
theorem neg_bit {s k : Nat} (h1 : s ≤ k) (h2 : k < 32) : (0#32 - (1#32 <<< s)).getLsbD k = true := by
  have : ∀ s < 32, ∀ k < 32, s ≤ k → (0#32 - (1#32 <<< s)).getLsbD k = true := by decide +kernel
  exact this s (by omega) k h2 h1

theorem and_mask_zero {m M : W32} {k : Nat} (h : m &&& M = 0) (hM : M.getLsbD k = true) : m.getLsbD k = false := by
  have := congrArg (fun x : W32 => x.getLsbD k) h
  simp only [BitVec.getLsbD_and, hM, Bool.and_true] at this
  simpa using this

theorem ok_lt {x : Pair} {p : Nat} (h : x.ok p = true) : p < 32 := by
  simp only [Pair.ok, Bool.and_eq_true, decide_eq_true_eq] at h
  exact h.1.1

theorem shr_bit (y : W32) (o s : Nat) : (y >>> o).getLsbD s = y.getLsbD (o + s) := by simp

theorem single_zero {m : W32} {dv : Nat} (hd : dv < 32) : (m &&& bitsOf [dv] = 0) ↔ m.getLsbD dv = false := by
  constructor
  · intro h
    exact and_mask_zero h (by rw [bitsOf_bit _ hd]; simp)
  · intro h
    apply BitVec.eq_of_getLsbD_eq
    intro i hi
    rw [BitVec.getLsbD_and, bitsOf_bit _ hi]
    by_cases e : i = dv
    · subst e; simp [h]
    · simp [e]

/-- Effect of one statement on the bit of vector `k`. -/
theorem Stmt.run_bit (w : Nat → W32) (mask : W32) (st : Stmt) (h : st.ok = true) {k : Nat} (hk : k < 32) :
    (st.run w mask).getLsbD k = (mask.getLsbD k && (st.conds k).all (holds w)) := by
  cases st with
  | sub g x o s dvs =>
    simp only [Stmt.ok, Bool.and_eq_true, List.all_eq_true, decide_eq_true_eq] at h
    have hos := ok_lt h.1
    simp only [Stmt.run, Stmt.conds]
    split
    · rename_i hg
      by_cases hm : k ∈ dvs
      · rw [and_mask_zero hg.2 (by rw [bitsOf_bit _ hk]; simp [hm])]; simp
      · simp [hm]
    · rw [BitVec.getLsbD_and, BitVec.getLsbD_or, BitVec.getLsbD_not, bitsOf_bit _ hk]
      by_cases hm : k ∈ dvs
      · rw [and_one _ (by omega : s < 32), shr_bit]
        simp only [hm, decide_true, Bool.not_true, Bool.and_false, Bool.or_false, if_true, List.all_cons,
          List.all_nil, Bool.and_true, Pair.holds_cond w x false h.1]
        cases (x.eval w).getLsbD (o + s)
        · rw [if_neg (by simp), neg_bit (h.2 k hm).1 hk]; rfl
        · rw [if_pos rfl, BitVec.sub_self]; simp
      · simp [hm, hk]
  | neg g x o s dvs =>
    simp only [Stmt.ok, Bool.and_eq_true, List.all_eq_true, decide_eq_true_eq] at h
    have hos := ok_lt h.1
    simp only [Stmt.run, Stmt.conds]
    split
    · rename_i hg
      by_cases hm : k ∈ dvs
      · rw [and_mask_zero hg.2 (by rw [bitsOf_bit _ hk]; simp [hm])]; simp
      · simp [hm]
    · rw [BitVec.getLsbD_and, BitVec.getLsbD_or, BitVec.getLsbD_not, bitsOf_bit _ hk]
      by_cases hm : k ∈ dvs
      · rw [and_one _ (by omega : s < 32), shr_bit]
        simp only [hm, decide_true, Bool.not_true, Bool.and_false, Bool.or_false, if_true, List.all_cons,
          List.all_nil, Bool.and_true, Pair.holds_cond w x true h.1]
        cases (x.eval w).getLsbD (o + s)
        · rw [if_neg (by simp)]; simp
        · rw [if_pos rfl, neg_bit (h.2 k hm).1 hk]; rfl
      · simp [hm, hk]
  | shl dv x m =>
    simp only [Stmt.ok, Bool.and_eq_true, decide_eq_true_eq] at h
    simp only [Stmt.run, Stmt.conds, ne_eq, single_zero h.1.2]
    by_cases e : k = dv
    · subst e
      simp only [if_true, List.all_cons, List.all_nil, Bool.and_true, Pair.holds_cond w x true h.2]
      split
      · rw [BitVec.getLsbD_and, BitVec.getLsbD_or, BitVec.getLsbD_not, bitsOf_bit _ hk, BitVec.getLsbD_shiftLeft]
        have : ¬ k < m := by omega
        simp [hk, this]
      · rename_i hz
        simp only [Bool.not_eq_false, Bool.not_eq_true] at hz
        rw [hz]; rfl
    · simp only [e, if_false, List.all_nil, Bool.and_true]
      split
      · rw [BitVec.getLsbD_and, BitVec.getLsbD_or, BitVec.getLsbD_not, bitsOf_bit _ hk]
        simp [hk, e]
      · rfl
  | notShr dv x m =>
    simp only [Stmt.ok, Bool.and_eq_true, decide_eq_true_eq] at h
    simp only [Stmt.run, Stmt.conds, ne_eq, single_zero h.1]
    by_cases e : k = dv
    · subst e
      simp only [if_true, List.all_cons, List.all_nil, Bool.and_true, Pair.holds_cond w x false h.2]
      split
      · rw [BitVec.getLsbD_and, BitVec.getLsbD_or, BitVec.getLsbD_not, BitVec.getLsbD_not, bitsOf_bit _ hk, shr_bit,
          Nat.add_comm]
        simp [hk]
      · rename_i hz
        simp only [Bool.not_eq_false, Bool.not_eq_true] at hz
        rw [hz]; rfl
    · simp only [e, if_false, List.all_nil, Bool.and_true]
      split
      · rw [BitVec.getLsbD_and, BitVec.getLsbD_or, BitVec.getLsbD_not, BitVec.getLsbD_not, bitsOf_bit _ hk]
        simp [hk, e]
      · rfl
  | test dv cs =>
    simp only [Stmt.ok, Bool.and_eq_true, decide_eq_true_eq, List.all_eq_true] at h
    simp only [Stmt.run, Stmt.conds, ne_eq, single_zero h.1]
    have hc : (cs.any fun c => if c.2.2 = true then (c.1.eval w &&& (1#32 <<< c.2.1)) != 0
          else (c.1.eval w &&& (1#32 <<< c.2.1)) == 0) =
        !((cs.map fun c => c.1.cond c.2.1 (!c.2.2)).all (holds w)) := by
      rw [List.all_map, List.not_all_eq_any_not]
      have : ∀ c ∈ cs, (if c.2.2 = true then (c.1.eval w &&& (1#32 <<< c.2.1)) != 0
          else (c.1.eval w &&& (1#32 <<< c.2.1)) == 0) = !((holds w ∘ fun c => c.1.cond c.2.1 (!c.2.2)) c) := by
        intro c hc
        have hs := ok_lt (h.2 c hc)
        have hne : 1#32 <<< c.2.1 ≠ 0#32 := by
          intro h0
          have := shiftOne_bit c.2.1 c.2.1 hs
          rw [h0] at this
          simp at this
        rw [Function.comp_apply, Pair.holds_cond w _ _ (h.2 c hc), and_one _ hs]
        generalize hb : (c.1.eval w).getLsbD c.2.1 = b
        generalize c.2.2 = f
        generalize hy : 1#32 <<< c.2.1 = y at *
        cases b <;> cases f <;> simp [hne]
      clear h
      induction cs with
      | nil => rfl
      | cons c cs ih =>
        rw [List.any_cons, List.any_cons, this c (by simp), ih (fun c hc => this c (by simp [hc]))]
    by_cases e : k = dv
    · subst e
      simp only [if_true]
      split
      · rename_i hz
        rw [hc] at hz
        rw [BitVec.getLsbD_and, BitVec.getLsbD_not, bitsOf_bit _ hk]
        have := hz.2
        simp only [Bool.not_eq_true'] at this
        rw [this]
        simp
      · rename_i hz
        rw [hc] at hz
        cases hm : mask.getLsbD k
        · simp
        · have : ((cs.map fun c => c.1.cond c.2.1 (!c.2.2)).all (holds w)) = true := by
            cases hq : ((cs.map fun c => c.1.cond c.2.1 (!c.2.2)).all (holds w))
            · exact absurd ⟨by simp [hm], by simp [hq]⟩ hz
            · rfl
          rw [this]; rfl
    · simp only [e, if_false, List.all_nil, Bool.and_true]
      split
      · rw [BitVec.getLsbD_and, BitVec.getLsbD_not, bitsOf_bit _ hk]
        simp [hk, e]
      · rfl

theorem run_fold (w : Nat → W32) {k : Nat} (hk : k < 32) (l : List Stmt) (h : l.all Stmt.ok = true) (mask : W32) :
    (l.foldl (Stmt.run w) mask).getLsbD k = (mask.getLsbD k && (l.flatMap (Stmt.conds k)).all (holds w)) := by
  induction l generalizing mask with
  | nil => simp
  | cons s l ih =>
    simp only [List.all_cons, Bool.and_eq_true] at h
    rw [List.foldl_cons, ih h.2, Stmt.run_bit w mask s h.1 hk, List.flatMap_cons, List.all_append, Bool.and_assoc]

/-- Order the two bits of a condition. -/
def norm (c : Cond) : Cond :=
  if c.1 < c.2.2.1 ∨ (c.1 = c.2.2.1 ∧ c.2.1 ≤ c.2.2.2.1) then c else (c.2.2.1, c.2.2.2.1, c.1, c.2.1, c.2.2.2.2)

theorem holds_norm (w : Nat → W32) (c : Cond) : holds w (norm c) = holds w c := by
  unfold norm
  split
  · rfl
  · simp only [holds]; rw [Bool.xor_comm]

theorem stmts_ok : ubcStmts.all Stmt.ok = true := by decide +kernel
theorem final_ok : ubcFinal.all Stmt.ok = true := by decide +kernel

/-- The statements of `ubc_check` impose exactly the listed conditions. -/
theorem conds_table : (List.range 32).all (fun k =>
    (((ubcStmts ++ ubcFinal).flatMap (Stmt.conds k)).map norm).all (fun c => (Spec.Ubc.conds.getD k []).contains c) &&
    (Spec.Ubc.conds.getD k []).all fun c => (((ubcStmts ++ ubcFinal).flatMap (Stmt.conds k)).map norm).contains c) = true := by
  decide +kernel

/-- Bit `k` of `ubc_check` says whether all conditions of vector `k` hold. -/
theorem ubcCheck_bit (w : Nat → W32) {k : Nat} (hk : k < 32) :
    (ubcCheck w).getLsbD k = (Spec.Ubc.conds.getD k []).all (holds w) := by
  have e : (ubcCheck w).getLsbD k = ((ubcStmts ++ ubcFinal).flatMap (Stmt.conds k)).all (holds w) := by
    rw [List.flatMap_append, List.all_append]
    have h1 := run_fold w hk ubcStmts stmts_ok (~~~ 0)
    have h0 : (~~~ (0 : W32)).getLsbD k = true := by rw [BitVec.getLsbD_not]; simp [hk]
    rw [h0, Bool.true_and] at h1
    unfold ubcCheck
    simp only
    split
    · rw [run_fold w hk ubcFinal final_ok, h1]
    · rename_i hz
      simp only [ne_eq, Decidable.not_not] at hz
      rw [hz] at h1 ⊢
      rw [← h1]
      simp
  rw [e]
  have t := conds_table
  rw [List.all_eq_true] at t
  have t := t k (List.mem_range.2 hk)
  simp only [Bool.and_eq_true, List.all_eq_true, List.contains_iff_mem] at t
  rw [Bool.eq_iff_iff, List.all_eq_true, List.all_eq_true]
  constructor
  · intro h c hc
    obtain ⟨c', hc', rfl⟩ := List.mem_map.1 (t.2 c hc)
    rw [holds_norm]
    exact h c' hc'
  · intro h c hc
    rw [← holds_norm]
    exact h _ (t.1 _ (List.mem_map.2 ⟨c, hc, rfl⟩))

end Hashes.Sha1Checked
