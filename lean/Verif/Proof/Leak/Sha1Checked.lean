import Verif.Leak.Sha1Checked
import Verif.Proof.Checked.Sha1Checked
import Verif.Proof.Sha1Checked
import Verif.Proof.Leak.Fsb
/- sha1-checked: forgetting the observations; what they show of the filter and of the vectors tried. -/
namespace Hashes.Leak
variable {α β γ δ : Type}

/-- As `Rel.bind`, with the values. -/
theorem Rel.bind_val {R : α → β → Prop} {S : γ → δ → Prop} {x : Leak α} {y : Leak β} {f : α → Leak γ} {g : β → Leak δ} (h : Rel R x y)
    (hf : ∀ a b, x.val = some a → y.val = some b → R a b → Rel S (f a) (g b)) : Rel S (x >>= f) (y >>= g) := by
  have h' : Rel (fun a b => x.val = some a ∧ y.val = some b ∧ R a b) x y := by
    refine ⟨h.1, ?_⟩
    have h2 := h.2
    cases hx : x.val <;> cases hy : y.val <;> rw [hx, hy] at h2 <;> cases h2
    · exact .none
    · next h2 => exact .some ⟨rfl, rfl, h2⟩
  exact h'.bind fun a b h => hf a b h.1 h.2.1 h.2.2

/-- As `Rel.branch`, with the outcome. -/
theorem Rel.branch_of {R : α → β → Prop} {p q : Prop} [Decidable p] [Decidable q] {a b : Leak α} {c d : Leak β} (hpq : p ↔ q)
    (h1 : p → q → Rel R a c) (h2 : ¬ p → ¬ q → Rel R b d) : Rel R (Leak.branch p a b) (Leak.branch q c d) := by
  have hd : decide p = decide q := by simp [hpq]
  refine bind (R := Eq) ?_ ?_
  · rw [hd]; exact refl _
  · intro _ _ _
    by_cases hp : p
    · rw [if_pos hp, if_pos (hpq.1 hp)]; exact h1 hp (hpq.1 hp)
    · rw [if_neg hp, if_neg fun hq => hp (hpq.2 hq)]; exact h2 hp fun hq => hp (hpq.2 hq)

/-- Runs that show the same show equally many. -/
theorem Reads.of_rel {R : α → β → Prop} {x : Leak α} {y : Leak β} (h : Rel R x y) : Reads R x y := by
  intro a b r r' ha hb _
  have h2 := h.2
  rw [ha, hb] at h2
  cases h2 with | some h2 => exact ⟨by rw [h.1], h2⟩

end Hashes.Leak

namespace Hashes.Sha1Checked
open Leak

/-! ### Forgetting the observations -/

theorem Sh.appL_val (x : W32) (s : Sh) : (s.appL x).val = s.appC x := by cases s <;> rfl
theorem Pair.evalL_val (w : List W32) (p : Pair) : (p.evalL w).val = p.evalC w := by
  simp only [Pair.evalL, Pair.evalC, val_bind, val_idx, Sh.appL_val, val_pure]; rfl
theorem bitsOfL_val (dvs : List Nat) : (bitsOfL dvs).val = bitsOfC dvs := by
  simp only [bitsOfL, bitsOfC, val_foldlM, val_bind, val_shl, val_pure]; rfl
theorem anyL_val (w : List W32) (cs : List (Pair × Nat × Bool)) : (anyL w cs).val = anyC w cs := by
  induction cs with
  | nil => rfl
  | cons c cs ih => simp only [anyL, anyC, val_bind, Pair.evalL_val, val_shl, val_branch, val_pure, ih]; rfl
theorem subTermL_val (w : List W32) (x : Pair) (o s : Nat) : (subTermL w x o s).val = subTermC w x o s := by
  simp only [subTermL, subTermC, val_bind, Pair.evalL_val, val_shl, val_shr, val_pure]; rfl
theorem negTermL_val (w : List W32) (x : Pair) (o s : Nat) : (negTermL w x o s).val = negTermC w x o s := by
  simp only [negTermL, negTermC, val_bind, Pair.evalL_val, val_shl, val_shr, val_pure]; rfl
theorem guardedL_val (guard : Bool) (mask bits : W32) (term : Leak W32) : (guardedL guard mask bits term).val = guarded guard mask bits term.val := by
  unfold guardedL guarded
  cases guard
  · rw [if_neg (by simp), if_neg (by simp), val_bind]; rfl
  · rw [if_pos rfl, val_branch]
    by_cases h : mask &&& bits = 0
    · rw [if_neg (by simpa using h), if_pos ⟨rfl, h⟩]; rfl
    · rw [if_pos h, if_neg fun h' => h h'.2, val_bind]; rfl
theorem testedL_val (mask bit : W32) (cond : Leak Bool) : (testedL mask bit cond).val = tested mask bit cond.val := by
  unfold testedL tested
  rw [val_branch]
  by_cases h : mask &&& bit = 0
  · rw [if_neg (by simpa using h), if_pos h]; rfl
  · rw [if_pos h, if_neg h, val_bind]
    cases cond.val with
    | none => rfl
    | some c => cases c <;> simp
theorem shlTermL_val (w : List W32) (x : Pair) (k : Nat) : (shlTermL w x k).val = shlTermC w x k := by
  simp only [shlTermL, shlTermC, val_bind, Pair.evalL_val, val_shl]
theorem notShrTermL_val (w : List W32) (x : Pair) (k : Nat) : (notShrTermL w x k).val = notShrTermC w x k := by
  simp only [notShrTermL, notShrTermC, val_bind, Pair.evalL_val, val_shr, val_pure]; rfl
theorem Stmt.runL_val (w : List W32) (mask : W32) (s : Stmt) : (s.runL w mask).val = s.runC w mask := by
  cases s <;> simp only [Stmt.runL, Stmt.runC, val_bind, bitsOfL_val, guardedL_val, testedL_val, subTermL_val, negTermL_val, shlTermL_val,
    notShrTermL_val, anyL_val]
theorem stmtsL_val (w : List W32) (l : List Stmt) (mask : W32) : (l.foldlM (Stmt.runL w) mask).val = l.foldlM (Stmt.runC w) mask := by
  rw [val_foldlM]
  exact congrArg (fun f => l.foldlM f mask) (funext fun m => funext fun s => Stmt.runL_val w m s)
theorem ubcCheckL_val (w : List W32) : (ubcCheckL w).val = ubcCheckC w := by
  simp only [ubcCheckL, ubcCheckC, val_bind, stmtsL_val, val_branch, val_pure]
theorem mixL_val (w : List W32) (t : Nat) : (mixL w t).val = mixC w t := by
  simp only [mixL, mixC, val_bind, val_usub, val_idx, val_pure]; rfl
theorem roundStep4L_val (r : Rnd) (ra rb rc rd re : Nat) (w : List W32) (t : Nat) (v : V5 W32) :
    (roundStep4L r ra rb rc rd re w t v).val = roundStep4C r ra rb rc rd re w t v := by
  simp only [roundStep4L, roundStep4C, val_bind, val_idx, val_pure]; rfl
theorem roundStepBw4L_val (r : Rnd) (ra rb rc rd re : Nat) (m : List W32) (t : Nat) (v : V5 W32) :
    (roundStepBw4L r ra rb rc rd re m t v).val = roundStepBw4C r ra rb rc rd re m t v := by
  simp only [roundStepBw4L, roundStepBw4C, val_bind, val_usub, val_idx, val_pure]; rfl
theorem fullStepL_val (r : Rnd) (ra rb rc rd re t : Nat) (x : WorkC) : (fullStepL r ra rb rc rd re t x).val = fullStepC r ra rb rc rd re t x := by
  simp only [fullStepL, fullStepC, val_bind, mixL_val, val_upd, val_idx, val_pure]; rfl
theorem load4L_val (ra rb rc rd re : Nat) (m : List W32) (t : Nat) (x : WorkC) : (load4L ra rb rc rd re m t x).val = load4C ra rb rc rd re m t x := by
  simp only [load4L, load4C, val_bind, val_slice, val_copy, roundStep4L_val, val_pure]; rfl
theorem expand4L_val (r : Rnd) (ra rb rc rd re t : Nat) (x : WorkC) : (expand4L r ra rb rc rd re t x).val = expand4C r ra rb rc rd re t x := by
  simp only [expand4L, expand4C, val_bind, mixL_val, val_upd, roundStep4L_val, val_pure]; rfl
theorem compressionWL_val (ihv : V5 W32) (w : List W32) : (compressionWL ihv w).val = compressionWC ihv w := by
  simp only [compressionWL, compressionWC, val_bind, roundStep4L_val, val_pure]; rfl
theorem compressionStatesL_val (ihv : V5 W32) (m w : List W32) : (compressionStatesL ihv m w).val = compressionStatesC ihv m w := by
  simp only [compressionStatesL, compressionStatesC, val_bind, load4L_val, expand4L_val, fullStepL_val, val_pure]; rfl
theorem recompressFast58L_val (me2 : List W32) (state : V5 W32) : (recompressFast58L me2 state).val = recompressFast58C me2 state := by
  simp only [recompressFast58L, recompressFast58C, val_bind, val_idx, roundStep4L_val, roundStepBw4L_val, val_pure]; rfl
theorem recompressFast65L_val (me2 : List W32) (state : V5 W32) : (recompressFast65L me2 state).val = recompressFast65C me2 state := by
  simp only [recompressFast65L, recompressFast65C, val_bind, val_idx, roundStep4L_val, roundStepBw4L_val, val_pure]; rfl
theorem recompressionStepL_val (step : Testt) (me2 : List W32) (state : V5 W32) :
    (recompressionStepL step me2 state).val = recompressionStepC step me2 state := by
  cases step
  · exact recompressFast58L_val me2 state
  · exact recompressFast65L_val me2 state
theorem safeL_val (state : V5 W32) (ctx : Detection) : (safeL state ctx).val = safeC state ctx := by
  simp only [safeL, safeC, val_branch, val_bind, compressionWL_val, val_pure]
theorem hitL_val (dv : Info) (state : V5 W32) (ctx : Detection) : (hitL dv state ctx).val = hitC dv state ctx := by
  simp only [hitL, hitC, val_bind, val_emit, recompressionStepL_val, val_branch, safeL_val, val_pure]
  congr 1; funext m2; congr 1; funext r
  by_cases h1 : xor5 r.2 state = 0
  · rw [if_pos h1, if_pos (.inl h1)]; rfl
  · rw [if_neg h1]
    by_cases h2 : ctx.reducedRoundCollision = true
    · rw [if_pos h2]
      by_cases h3 : xor5 ctx.ihv1 r.1 = 0
      · rw [if_pos h3, if_pos (.inr ⟨h2, h3⟩)]; rfl
      · rw [if_neg h3, if_neg fun h => h.elim h1 fun h => h3 h.2]; rfl
    · rw [if_neg h2, if_neg fun h => h.elim h1 fun h => h2 h.1]; rfl
theorem tryDvsL_val (mask : W32) (l : List Info) (state : V5 W32) (ctx : Detection) : (tryDvsL mask l state ctx).val = tryDvsC mask l state ctx := by
  induction l generalizing state ctx with
  | nil => rfl
  | cons dv l ih =>
    simp only [tryDvsL, tryDvsC, val_bind, val_shl, val_branch, hitL_val, ih]
    congr 1; funext b
    split
    · congr 1; funext r
      split
      · rfl
      · exact ih _ _
    · rfl
theorem maskL_val (ctx : Detection) : (maskL ctx).val = maskC ctx := by
  simp only [maskL, maskC, val_branch, ubcCheckL_val, val_pure]
theorem compress1L_val (x : V5 W32 × Detection) (block : Bytes) : (compress1L x block).val = compress1C x block := by
  simp only [compress1L, compress1C, val_bind, val_load, val_fromBe, compressionStatesL_val, maskL_val, val_branch, tryDvsL_val, val_pure]
theorem compressL_val (x : V5 W32 × Detection) (blks : List Bytes) : (compressL x blks).val = compressC x blks := by
  rw [compressL, compressC, val_foldlM]
  exact congrArg (fun f => blks.foldlM f x) (funext fun m => funext fun s => compress1L_val m s)

/-! ### Parts that show lengths only -/

theorem Sh.appL_rel (s : Sh) {x y : W32} : Rel Any (s.appL x) (s.appL y) := by
  cases s
  · exact Rel.pure trivial
  · exact Rel.shr rfl
  · exact Rel.shl rfl
theorem Pair.evalL_rel (p : Pair) {w w' : List W32} (h : Len w w') : Rel Any (p.evalL w) (p.evalL w') :=
  (Rel.idx h rfl).bind fun _ _ _ => (Sh.appL_rel _).bind fun _ _ _ => (Rel.idx h rfl).bind fun _ _ _ => (Sh.appL_rel _).bind fun _ _ _ =>
    Rel.pure trivial
theorem subTermL_rel (p : Pair) (o s : Nat) {w w' : List W32} (h : Len w w') : Rel Any (subTermL w p o s) (subTermL w' p o s) :=
  (p.evalL_rel h).bind fun _ _ _ => (Rel.shr rfl).bind fun _ _ _ => (Rel.shl rfl).bind fun _ _ _ => Rel.pure trivial
theorem negTermL_rel (p : Pair) (o s : Nat) {w w' : List W32} (h : Len w w') : Rel Any (negTermL w p o s) (negTermL w' p o s) :=
  (p.evalL_rel h).bind fun _ _ _ => (Rel.shr rfl).bind fun _ _ _ => (Rel.shl rfl).bind fun _ _ _ => Rel.pure trivial
theorem shlTermL_rel (p : Pair) (k : Nat) {w w' : List W32} (h : Len w w') : Rel Any (shlTermL w p k) (shlTermL w' p k) :=
  (p.evalL_rel h).bind fun _ _ _ => Rel.shl rfl
theorem notShrTermL_rel (p : Pair) (k : Nat) {w w' : List W32} (h : Len w w') : Rel Any (notShrTermL w p k) (notShrTermL w' p k) :=
  (p.evalL_rel h).bind fun _ _ _ => (Rel.shr rfl).bind fun _ _ _ => Rel.pure trivial
theorem mixL_rel {w w' : List W32} (t : Nat) (h : Len w w') : Rel Any (mixL w t) (mixL w' t) := by unfold mixL; leak
macro_rules | `(tactic| leak_use) => `(tactic| refine mixL_rel _ ?_)
theorem roundStep4L_rel {r : Rnd} {ra rb rc rd re t : Nat} {w w' : List W32} {v v' : V5 W32} (h : Len w w') :
    Rel Any (roundStep4L r ra rb rc rd re w t v) (roundStep4L r ra rb rc rd re w' t v') := by unfold roundStep4L; leak
macro_rules | `(tactic| leak_use) => `(tactic| refine roundStep4L_rel ?_)
theorem roundStepBw4L_rel {r : Rnd} {ra rb rc rd re t : Nat} {w w' : List W32} {v v' : V5 W32} (h : Len w w') :
    Rel Any (roundStepBw4L r ra rb rc rd re w t v) (roundStepBw4L r ra rb rc rd re w' t v') := by
  unfold roundStepBw4L
  refine (Rel.idx h rfl).bind fun _ _ _ => ?_
  refine (Rel.refl _).bind fun _ _ e => ?_
  subst e
  refine (Rel.idx h rfl).bind fun _ _ _ => (Rel.refl _).bind fun _ _ e => ?_
  subst e
  refine (Rel.idx h rfl).bind fun _ _ _ => (Rel.refl _).bind fun _ _ e => ?_
  subst e
  exact (Rel.idx h rfl).bind fun _ _ _ => Rel.pure trivial
theorem fullStepL_rel {r : Rnd} {ra rb rc rd re t : Nat} {x x' : WorkC} (h : Len x.2 x'.2) :
    Rel (fun x x' => Len x.2 x'.2) (fullStepL r ra rb rc rd re t x) (fullStepL r ra rb rc rd re t x') :=
  (mixL_rel t h).bind fun _ _ _ => (Rel.upd h rfl).bind fun _ _ h => (Rel.idx h rfl).bind fun _ _ _ => Rel.pure h
theorem load4L_rel {ra rb rc rd re t : Nat} {m m' : List W32} {x x' : WorkC} (hm : Len m m') (h : Len x.2 x'.2) :
    Rel (fun x x' => Len x.2 x'.2) (load4L ra rb rc rd re m t x) (load4L ra rb rc rd re m' t x') :=
  (Rel.slice hm rfl rfl).bind fun _ _ hs => (Rel.copy h rfl rfl hs).bind fun _ _ h => (roundStep4L_rel h).bind fun _ _ _ => Rel.pure h
theorem expand4L_rel {r : Rnd} {ra rb rc rd re t : Nat} {x x' : WorkC} (h : Len x.2 x'.2) :
    Rel (fun x x' => Len x.2 x'.2) (expand4L r ra rb rc rd re t x) (expand4L r ra rb rc rd re t x') :=
  (mixL_rel t h).bind fun _ _ _ => (Rel.upd h rfl).bind fun _ _ h => (mixL_rel _ h).bind fun _ _ _ => (Rel.upd h rfl).bind fun _ _ h =>
    (mixL_rel _ h).bind fun _ _ _ => (Rel.upd h rfl).bind fun _ _ h => (mixL_rel _ h).bind fun _ _ _ => (Rel.upd h rfl).bind fun _ _ h =>
      (roundStep4L_rel h).bind fun _ _ _ => Rel.pure h
theorem compressionWL_rel {v v' : V5 W32} {w w' : List W32} (h : Len w w') : Rel Any (compressionWL v w) (compressionWL v' w') := by
  unfold compressionWL
  repeat (refine (roundStep4L_rel h).bind fun _ _ _ => ?_)
  exact Rel.pure trivial
theorem compressionStatesL_rel {v v' : V5 W32} {m m' w w' : List W32} (hm : Len m m') (h : Len w w') :
    Rel (fun r r' => Len r.w r'.w) (compressionStatesL v m w) (compressionStatesL v' m' w') := by
  unfold compressionStatesL
  have h0 : Len (v, w).2 (v', w').2 := h
  iterate 4 refine (load4L_rel hm (by assumption)).bind fun _ _ _ => ?_
  iterate 10 refine (expand4L_rel (by assumption)).bind fun _ _ _ => ?_
  iterate 4 refine (fullStepL_rel (by assumption)).bind fun _ _ _ => ?_
  refine (expand4L_rel (by assumption)).bind fun _ _ _ => ?_
  iterate 4 refine (fullStepL_rel (by assumption)).bind fun _ _ _ => ?_
  iterate 3 refine (expand4L_rel (by assumption)).bind fun _ _ _ => ?_
  exact Rel.pure (by assumption)
theorem recompressFast58L_rel {v v' : V5 W32} {w w' : List W32} (h : Len w w') : Rel Any (recompressFast58L w v) (recompressFast58L w' v') := by
  unfold recompressFast58L
  iterate 2 refine (Rel.idx h rfl).bind fun _ _ _ => ?_
  iterate 14 refine (roundStepBw4L_rel h).bind fun _ _ _ => ?_
  iterate 2 refine (Rel.idx h rfl).bind fun _ _ _ => ?_
  iterate 5 refine (roundStep4L_rel h).bind fun _ _ _ => ?_
  exact Rel.pure trivial
theorem recompressFast65L_rel {v v' : V5 W32} {w w' : List W32} (h : Len w w') : Rel Any (recompressFast65L w v) (recompressFast65L w' v') := by
  unfold recompressFast65L
  refine (Rel.idx h rfl).bind fun _ _ _ => ?_
  iterate 16 refine (roundStepBw4L_rel h).bind fun _ _ _ => ?_
  iterate 3 refine (Rel.idx h rfl).bind fun _ _ _ => ?_
  iterate 3 refine (roundStep4L_rel h).bind fun _ _ _ => ?_
  exact Rel.pure trivial
theorem recompressionStepL_rel (T : Testt) {v v' : V5 W32} {w w' : List W32} (h : Len w w') :
    Rel Any (recompressionStepL T w v) (recompressionStepL T w' v') := by
  cases T
  · exact recompressFast58L_rel h
  · exact recompressFast65L_rel h

/-! ### The filter: the two runs go the same way as long as they show the same -/

theorem anyL_reads {w w' : List W32} (h : Len w w') (cs : List (Pair × Nat × Bool)) : Reads Any (anyL w cs) (anyL w' cs) := by
  induction cs with
  | nil => exact Reads.pure trivial
  | cons c cs ih =>
    exact (Reads.of_rel (c.1.evalL_rel h)).bind fun _ _ _ _ _ => (Reads.of_rel (Rel.refl _)).bind fun _ _ _ _ _ =>
      Reads.branch (fun _ _ => Reads.pure trivial) fun _ _ => ih
theorem guardedL_reads (g : Bool) {mask mask' bits : W32} {t t' : Leak W32} (h : Reads Any t t') :
    Reads Any (guardedL g mask bits t) (guardedL g mask' bits t') := by
  unfold guardedL
  cases g
  · exact h.bind fun _ _ _ _ _ => Reads.pure trivial
  · exact Reads.branch (fun _ _ => h.bind fun _ _ _ _ _ => Reads.pure trivial) fun _ _ => Reads.pure trivial
theorem testedL_reads {mask mask' bit : W32} {c c' : Leak Bool} (h : Reads Any c c') : Reads Any (testedL mask bit c) (testedL mask' bit c') :=
  Reads.branch (fun _ _ => h.bind fun _ _ _ _ _ => Reads.branch (fun _ _ => Reads.pure trivial) fun _ _ => Reads.pure trivial)
    fun _ _ => Reads.pure trivial
theorem Stmt.runL_reads {w w' : List W32} (h : Len w w') (mask mask' : W32) (s : Stmt) : Reads Any (s.runL w mask) (s.runL w' mask') := by
  have hb : ∀ dvs, Reads Eq (bitsOfL dvs) (bitsOfL dvs) := fun _ => Reads.of_rel (Rel.refl _)
  cases s with
  | sub g x o s dvs => exact (hb _).bind fun _ _ _ _ e => e ▸ guardedL_reads _ (Reads.of_rel (subTermL_rel _ _ _ h))
  | neg g x o s dvs => exact (hb _).bind fun _ _ _ _ e => e ▸ guardedL_reads _ (Reads.of_rel (negTermL_rel _ _ _ h))
  | shl dv x k => exact (hb _).bind fun _ _ _ _ e => e ▸ guardedL_reads _ (Reads.of_rel (shlTermL_rel _ _ h))
  | notShr dv x k => exact (hb _).bind fun _ _ _ _ e => e ▸ guardedL_reads _ (Reads.of_rel (notShrTermL_rel _ _ h))
  | test dv cs => exact (hb _).bind fun _ _ _ _ e => e ▸ testedL_reads (anyL_reads h cs)
theorem ubcCheckL_reads {w w' : List W32} (h : Len w w') : Reads Any (ubcCheckL w) (ubcCheckL w') := by
  unfold ubcCheckL
  generalize ubcStmts = l, ubcFinal = l'
  exact (Reads.fold trivial fun _ _ s _ => Stmt.runL_reads h _ _ s).bind fun _ _ _ _ _ =>
    Reads.branch (fun _ _ => Reads.fold trivial fun _ _ s _ => Stmt.runL_reads h _ _ s) fun _ _ => Reads.pure trivial
theorem maskL_reads {c c' : Detection} : Reads Any (maskL c) (maskL c') :=
  Reads.branch (fun _ _ => ubcCheckL_reads (by simp [Len])) fun _ _ => Reads.pure trivial

/-! ### The vectors -/

/-- The detection state with which the vectors are tried on block `B` at chaining value `H`. -/
structure Ready (H : V5 W32) (B : Bytes) (ctx : Detection) : Prop where
  m1 : ctx.m1.get = Sha1.W B
  ihv1 : ctx.ihv1 = H
  s58 : At (Sha1.W B) H 58 ctx.state58
  s65 : At (Sha1.W B) H 65 ctx.state65

theorem Ready.saved {H : V5 W32} {B : Bytes} {ctx : Detection} (h : Ready H B ctx) (T : Testt) : At (Sha1.W B) H T.steps (ctx.saved T) := by
  cases T
  · exact h.s58
  · exact h.s65

/-- The words of the sibling block. -/
def m2Of (dv : Info) (ctx : Detection) : Arr 32 80 := Arr.ofFn 80 fun i => ctx.m1.get i ^^^ dv.dm.getD i 0

/-- `hitL` with the words of the sibling block filled in. -/
theorem hitL_eq {dv : Info} (hd : dv.dm.length = 80) (state : V5 W32) (ctx : Detection) :
    hitL dv state ctx = (do
      let m2 ← emit (.range 0 80) (some (m2Of dv ctx))
      let r ← recompressionStepL dv.testt m2.toList (({ ctx with m2 := m2 } : Detection).saved dv.testt)
      let c : Detection := { ctx with m2 := m2, ihv2 := r.1 }
      let found : Leak (Bool × V5 W32 × Detection) := do
        let c : Detection := { c with foundCollision := true }
        let state ← safeL state c
        pure (true, state, c)
      branch (xor5 r.2 state = 0) found
        (branch (c.reducedRoundCollision = true) (branch (xor5 c.ihv1 c.ihv2 = 0) found (pure (false, state, c))) (pure (false, state, c)))) := by
  have e : arr80 (xorInto ctx.m2.toList ctx.m1.toList dv.dm) = some (m2Of dv ctx) := by
    have e : xorInto ctx.m2.toList ctx.m1.toList dv.dm = (m2Of dv ctx).toList := by
      rw [xorInto_eq (by simp) (by simp [hd]), Arr.length_toList]; rfl
    rw [e]; exact arr80_eq _
  unfold hitL
  rw [e]

/-- The two conditions of `hitL`. -/
theorem conds_iff {H : V5 W32} {B : Bytes} {dv : Info} (hi : dv ∈ SHA1_DVS) {ctx : Detection} (h : Ready H B ctx) {r : V5 W32 × V5 W32}
    (hr : (recompressionStepL dv.testt (m2Of dv ctx).toList (({ ctx with m2 := m2Of dv ctx } : Detection).saved dv.testt)).val = some r) :
    (xor5 r.2 (Spec.Sha1.compress H B) = 0 ↔ Fits false H B dv) ∧
    (xor5 r.2 (Spec.Sha1.compress H B) = 0 ∨ (ctx.reducedRoundCollision = true ∧ xor5 ctx.ihv1 r.1 = 0) ↔ Fits ctx.reducedRoundCollision H B dv) := by
  have hs : ({ ctx with m2 := m2Of dv ctx } : Detection).saved dv.testt = ctx.saved dv.testt := by cases dv.testt <;> rfl
  rw [recompressionStepL_val, recompressionStepC_eq, hs, Option.some.injEq] at hr
  subst hr
  have k := fun reduced => test_iff (reduced := reduced) hi h.m1 (h.saved dv.testt)
  refine ⟨?_, ?_⟩
  · rw [← k false]
    simp only [Bool.false_eq_true, false_and, or_false]; rfl
  · rw [← k ctx.reducedRoundCollision, h.ihv1]; rfl

theorem safeL_rel {s s' : V5 W32} {c c' : Detection} (h : c.safeHash = c'.safeHash) : Rel Any (safeL s c) (safeL s' c') :=
  Rel.branch (by rw [h]) ((compressionWL_rel (by simp [Len])).bind fun _ _ _ => compressionWL_rel (by simp [Len])) (Rel.pure trivial)

section Two
variable {H H' : V5 W32} {B B' : Bytes} {ctx ctx' : Detection}

theorem hitL_reads {dv : Info} (hi : dv ∈ SHA1_DVS) (hd : dv.dm.length = 80) (h : Ready H B ctx) (h' : Ready H' B' ctx') (hc : ctx.cfg = ctx'.cfg) :
    Reads (fun _ _ => (Fits false H B dv ↔ Fits false H' B' dv) ∧
      (Fits ctx.reducedRoundCollision H B dv ↔ Fits ctx.reducedRoundCollision H' B' dv))
      (hitL dv (Spec.Sha1.compress H B) ctx) (hitL dv (Spec.Sha1.compress H' B') ctx') := by
  have hc1 : ctx.safeHash = ctx'.safeHash := congrArg (·.1) hc
  have hc3 : ctx.reducedRoundCollision = ctx'.reducedRoundCollision := congrArg (·.2.2) hc
  rw [hitL_eq hd, hitL_eq hd]
  refine Reads.emit.bind fun m m' hm hm' _ => ?_
  cases hm; cases hm'
  refine (Reads.of_rel (recompressionStepL_rel _ (by simp [Len]))).bind fun r r' hr hr' _ => ?_
  obtain ⟨f, g⟩ := conds_iff hi h hr
  obtain ⟨f', g'⟩ := conds_iff hi h' hr'
  rw [← hc3] at g'
  have fin : ∀ {P : Prop} {c c' : Detection}, c.safeHash = c'.safeHash → P → Reads (fun _ _ => P)
      (safeL (Spec.Sha1.compress H B) c >>= fun s => pure (true, s, c)) (safeL (Spec.Sha1.compress H' B') c' >>= fun s => pure (true, s, c')) :=
    fun e p => (Reads.of_rel (safeL_rel e)).bind fun _ _ _ _ _ => Reads.pure p
  dsimp only
  refine Reads.branch (fun p q => fin hc1 ?_) fun p q => ?_
  · exact ⟨iff_of_true (f.1 p) (f'.1 q), iff_of_true (g.1 (.inl p)) (g'.1 (.inl q))⟩
  · have ff : Fits false H B dv ↔ Fits false H' B' dv := iff_of_false (fun h => p (f.2 h)) fun h => q (f'.2 h)
    refine Reads.branch (fun t t' => Reads.branch (fun u u' => fin hc1 ?_) fun u u' => Reads.pure ?_) fun t t' => Reads.pure ?_
    · exact ⟨ff, iff_of_true (g.1 (.inr ⟨t, u⟩)) (g'.1 (.inr ⟨t, u'⟩))⟩
    · exact ⟨ff, iff_of_false (fun h => (g.2 h).elim p fun h => u h.2) fun h => (g'.2 h).elim q fun h => u' h.2⟩
    · exact ⟨ff, iff_of_false (fun h => (g.2 h).elim p fun h => t h.1) fun h => (g'.2 h).elim q fun h => t h.1⟩

theorem hitL_rel {dv : Info} (hi : dv ∈ SHA1_DVS) (hd : dv.dm.length = 80) (h : Ready H B ctx) (h' : Ready H' B' ctx') (hc : ctx.cfg = ctx'.cfg)
    (e : Fits false H B dv ↔ Fits false H' B' dv) (e' : Fits ctx.reducedRoundCollision H B dv ↔ Fits ctx.reducedRoundCollision H' B' dv) :
    Rel Any (hitL dv (Spec.Sha1.compress H B) ctx) (hitL dv (Spec.Sha1.compress H' B') ctx') := by
  have hc1 : ctx.safeHash = ctx'.safeHash := congrArg (·.1) hc
  have hc3 : ctx.reducedRoundCollision = ctx'.reducedRoundCollision := congrArg (·.2.2) hc
  rw [hitL_eq hd, hitL_eq hd]
  refine (Rel.of_emit (R := Any) (.some trivial)).bind_val fun m m' hm hm' _ => ?_
  cases hm; cases hm'
  refine (recompressionStepL_rel _ (by simp [Len])).bind_val fun r r' hr hr' _ => ?_
  obtain ⟨f, g⟩ := conds_iff hi h hr
  obtain ⟨f', g'⟩ := conds_iff hi h' hr'
  rw [← hc3] at g'
  have fin : ∀ {c c' : Detection}, c.safeHash = c'.safeHash → Rel Any
      (safeL (Spec.Sha1.compress H B) c >>= fun s => pure (true, s, c)) (safeL (Spec.Sha1.compress H' B') c' >>= fun s => pure (true, s, c')) :=
    fun e => (safeL_rel e).bind fun _ _ _ => Rel.pure trivial
  dsimp only
  have hf := (f.trans e).trans f'.symm
  have hg := (g.trans e').trans g'.symm
  refine Rel.branch_of hf (fun _ _ => fin hc1) fun p q => ?_
  simp only [p, q, false_or] at hg
  refine Rel.branch_of (by rw [hc3]) (fun t t' => ?_) fun _ _ => Rel.pure trivial
  rw [← hc3] at t'
  exact Rel.branch (by simpa only [t, true_and] using hg) (fin hc1) (Rel.pure trivial)
end Two

/-- What a hit is, and what trying a vector in vain leaves. -/
theorem hit_facts {H : V5 W32} {B : Bytes} {dv : Info} (hi : dv ∈ SHA1_DVS) {ctx : Detection} (h : Ready H B ctx) :
    ((hit dv (Spec.Sha1.compress H B) ctx).1 = true ↔ Fits ctx.reducedRoundCollision H B dv) ∧
    (¬ Fits ctx.reducedRoundCollision H B dv → (hit dv (Spec.Sha1.compress H B) ctx).2.1 = Spec.Sha1.compress H B ∧
      Ready H B (hit dv (Spec.Sha1.compress H B) ctx).2.2 ∧ (hit dv (Spec.Sha1.compress H B) ctx).2.2.cfg = ctx.cfg) := by
  have e := (recompressionStepL_val dv.testt (m2Of dv ctx).toList (({ ctx with m2 := m2Of dv ctx } : Detection).saved dv.testt)).trans
    (recompressionStepC_eq _ _ _)
  obtain ⟨-, g⟩ := conds_iff hi h e
  unfold hit
  unfold m2Of at g
  dsimp only at g ⊢
  by_cases hf : Fits ctx.reducedRoundCollision H B dv
  · have c := g.2 hf
    rw [if_pos c]
    exact ⟨iff_of_true rfl hf, fun hn => absurd hf hn⟩
  · have c := fun h => hf (g.1 h)
    rw [if_neg c]
    exact ⟨iff_of_false (by simp) hf, fun _ => ⟨rfl, ⟨h.m1, h.ihv1, h.s58, h.s65⟩, rfl⟩⟩

/-- The two runs do the same with the vectors up to the first hit. -/
def Agree (red : Bool) (mask mask' : W32) (H H' : V5 W32) (B B' : Bytes) : List Info → Prop
  | [] => True
  | dv :: l => (mask.getLsbD dv.maskb = true ↔ mask'.getLsbD dv.maskb = true) ∧
    (mask.getLsbD dv.maskb = true → (Fits false H B dv ↔ Fits false H' B' dv) ∧ (Fits red H B dv ↔ Fits red H' B' dv)) ∧
    (¬ (mask.getLsbD dv.maskb = true ∧ Fits red H B dv) → Agree red mask mask' H H' B B' l)

section Two
variable {H H' : V5 W32} {B B' : Bytes}

theorem tryDvsL_reads {mask mask' : W32} (l : List Info) (hl : ∀ i ∈ l, i ∈ SHA1_DVS ∧ i.maskb < 32 ∧ i.dm.length = 80) {ctx ctx' : Detection}
    (h : Ready H B ctx) (h' : Ready H' B' ctx') (hc : ctx.cfg = ctx'.cfg) :
    Reads (fun _ _ => Agree ctx.reducedRoundCollision mask mask' H H' B B' l) (tryDvsL mask l (Spec.Sha1.compress H B) ctx)
      (tryDvsL mask' l (Spec.Sha1.compress H' B') ctx') := by
  induction l generalizing ctx ctx' with
  | nil => exact Reads.pure trivial
  | cons dv l ih =>
    obtain ⟨hi, hb, hd⟩ := hl dv List.mem_cons_self
    have hl' := fun i hi => hl i (List.mem_cons_of_mem _ hi)
    have hc3 : ctx.reducedRoundCollision = ctx'.reducedRoundCollision := congrArg (·.2.2) hc
    unfold tryDvsL
    refine (Reads.of_rel (Rel.refl _)).bind fun b b' hb1 _ e => ?_
    subst e
    rw [val_shl, Rs.shl, if_pos hb, Option.some.injEq] at hb1
    subst hb1
    refine Reads.branch (fun p q => ?_) fun p q => ?_
    · rw [mask_bit mask hb] at p
      rw [mask_bit mask' hb] at q
      refine (hitL_reads hi hd h h' hc).bind fun r r' hr hr' e => ?_
      rw [hitL_val, hitC_eq hd, Option.some.injEq] at hr hr'
      subst hr hr'
      obtain ⟨f1, f2⟩ := hit_facts hi h
      obtain ⟨f1', f2'⟩ := hit_facts hi h'
      rw [← hc3] at f1' f2'
      by_cases hf : Fits ctx.reducedRoundCollision H B dv
      · rw [if_pos (f1.2 hf), if_pos (f1'.2 (e.2.1 hf))]
        exact Reads.pure ⟨iff_of_true p q, fun _ => e, fun hn => absurd ⟨p, hf⟩ hn⟩
      · have hf' : ¬ Fits ctx.reducedRoundCollision H' B' dv := fun h => hf (e.2.2 h)
        rw [if_neg fun h => hf (f1.1 h), if_neg fun h => hf' (f1'.1 h)]
        obtain ⟨s1, s2, s3⟩ := f2 hf
        obtain ⟨s1', s2', s3'⟩ := f2' hf'
        rw [s1, s1']
        refine (ih hl' s2 s2' (by rw [s3, s3', hc])).mono fun _ _ _ _ hA => ⟨iff_of_true p q, fun _ => e, fun _ => ?_⟩
        rwa [show (hit dv (Spec.Sha1.compress H B) ctx).2.2.reducedRoundCollision = ctx.reducedRoundCollision from congrArg (·.2.2) s3] at hA
    · rw [mask_bit mask hb] at p
      rw [mask_bit mask' hb] at q
      exact (ih hl' h h' hc).mono fun _ _ _ _ hA => ⟨iff_of_false p q, fun hp => absurd hp p, fun _ => hA⟩

theorem tryDvsL_rel {mask mask' : W32} (l : List Info) (hl : ∀ i ∈ l, i ∈ SHA1_DVS ∧ i.maskb < 32 ∧ i.dm.length = 80) {ctx ctx' : Detection}
    (h : Ready H B ctx) (h' : Ready H' B' ctx') (hc : ctx.cfg = ctx'.cfg) (hA : Agree ctx.reducedRoundCollision mask mask' H H' B B' l) :
    Rel Any (tryDvsL mask l (Spec.Sha1.compress H B) ctx) (tryDvsL mask' l (Spec.Sha1.compress H' B') ctx') := by
  induction l generalizing ctx ctx' with
  | nil => exact Rel.pure trivial
  | cons dv l ih =>
    obtain ⟨hi, hb, hd⟩ := hl dv List.mem_cons_self
    have hl' := fun i hi => hl i (List.mem_cons_of_mem _ hi)
    have hc3 : ctx.reducedRoundCollision = ctx'.reducedRoundCollision := congrArg (·.2.2) hc
    obtain ⟨a1, a2, a3⟩ := hA
    unfold tryDvsL
    refine (Rel.refl _).bind_val fun b b' hb1 _ e => ?_
    subst e
    rw [val_shl, Rs.shl, if_pos hb, Option.some.injEq] at hb1
    subst hb1
    refine Rel.branch_of (by rw [mask_bit mask hb, mask_bit mask' hb]; exact a1) (fun p q => ?_) fun p q => ?_
    · rw [mask_bit mask hb] at p
      obtain ⟨e1, e2⟩ := a2 p
      refine (hitL_rel hi hd h h' hc e1 e2).bind_val fun r r' hr hr' e => ?_
      rw [hitL_val, hitC_eq hd, Option.some.injEq] at hr hr'
      subst hr hr'
      obtain ⟨f1, f2⟩ := hit_facts hi h
      obtain ⟨f1', f2'⟩ := hit_facts hi h'
      rw [← hc3] at f1' f2'
      by_cases hf : Fits ctx.reducedRoundCollision H B dv
      · rw [if_pos (f1.2 hf), if_pos (f1'.2 (e2.1 hf))]
        exact Rel.pure trivial
      · have hf' : ¬ Fits ctx.reducedRoundCollision H' B' dv := fun h => hf (e2.2 h)
        rw [if_neg fun h => hf (f1.1 h), if_neg fun h => hf' (f1'.1 h)]
        obtain ⟨s1, s2, s3⟩ := f2 hf
        obtain ⟨s1', s2', s3'⟩ := f2' hf'
        rw [s1, s1']
        refine ih hl' s2 s2' (by rw [s3, s3', hc]) ?_
        rw [show (hit dv (Spec.Sha1.compress H B) ctx).2.2.reducedRoundCollision = ctx.reducedRoundCollision from congrArg (·.2.2) s3]
        exact a3 fun h => hf h.2
    · rw [mask_bit mask hb] at p
      exact ih hl' h h' hc (a3 fun h => p h.1)
end Two

/-! ### One block -/

/-- The filter of the block, all ones without it. -/
def maskOf (ubc : Bool) (B : Bytes) : W32 := if ubc then ubcCheck (Sha1.W B) else 0xFFFFFFFF#32

theorem agree_zero (red : Bool) (H H' : V5 W32) (B B' : Bytes) (l : List Info) : Agree red 0 0 H H' B B' l := by
  induction l with
  | nil => trivial
  | cons dv l ih => exact ⟨Iff.rfl, by simp, fun _ => ih⟩

theorem ready (H : V5 W32) (ctx : Detection) (B : Bytes) : Ready H B
    { ctx with
      ihv1 := H
      m1 := (compressionStates H (wordBE 32 B) ctx.m1).w
      state58 := (compressionStates H (wordBE 32 B) ctx.m1).state58
      state65 := (compressionStates H (wordBE 32 B) ctx.m1).state65 } := by
  obtain ⟨-, c2, c3, c4⟩ := compressionStates_spec H B ctx.m1
  refine ⟨?_, rfl, c3, c4⟩
  funext t
  by_cases ht : t < 80
  · exact c2 t ht
  · rw [W_ge80 _ (by omega), arr_ge80 _ (by omega)]

theorem loadL_val {block : Bytes} (h : block.length = 64) :
    (load (List.replicate 16 (0 : W32)) block 4 (Leak.fromBe 32)).val = some (Arr.ofFn 16 (wordBE 32 block) : Arr 32 16).toList := by
  rw [val_load]
  exact Rs.load_be (w := 32) (n := 16) (by decide) (List.length_replicate ..) h

theorem statesL_val (H : V5 W32) (w : Arr 32 80) (block : Bytes) :
    (compressionStatesL H (Arr.ofFn 16 (wordBE 32 block) : Arr 32 16).toList w.toList).val = some (compressionStates H (wordBE 32 block) w).toC := by
  have g : ∀ i < 16, (Arr.ofFn 16 (wordBE 32 block) : Arr 32 16).get i = wordBE 32 block i := fun i hi => Arr.get_ofFn _ hi
  have e2 : compressionStates H (Arr.ofFn 16 (wordBE 32 block) : Arr 32 16).get w = compressionStates H (wordBE 32 block) w := by
    unfold compressionStates load4
    simp only [g, Nat.reduceAdd, Nat.reduceLT]
  rw [compressionStatesL_val, compressionStatesC_eq]
  exact congrArg (fun r => some (States.toC r)) e2

theorem dvs_good : ∀ i ∈ SHA1_DVS, i ∈ SHA1_DVS ∧ i.maskb < 32 ∧ i.dm.length = 80 := by
  intro i hi
  have h := dvs_ok
  rw [List.all_eq_true] at h
  have h := h i hi
  simp only [Bool.and_eq_true, decide_eq_true_eq, beq_iff_eq] at h
  exact ⟨hi, h⟩

/-- `compress1L` after loading, with the values filled in. -/
theorem maskL_value {H : V5 W32} {B : Bytes} {ctx : Detection} (h : Ready H B ctx) {mask : W32} (hm : (maskL ctx).val = some mask) :
    mask = maskOf ctx.ubcCheck B := by
  rw [maskL_val, maskC_eq, Option.some.injEq, h.m1] at hm
  exact hm.symm

theorem arr80L_rel (a a' : Arr 32 80) : Rel Any (⟨arr80 a.toList, []⟩ : Leak (Arr 32 80)) ⟨arr80 a'.toList, []⟩ :=
  ⟨rfl, by rw [arr80_eq, arr80_eq]; exact .some trivial⟩

theorem compress1L_reads {x x' : V5 W32 × Detection} (hc : x.2.cfg = x'.2.cfg) {b b' : Bytes} (hb : b.length = 64) (hb' : b'.length = 64) :
    Reads (fun _ _ => Agree x.2.reducedRoundCollision (maskOf x.2.ubcCheck b) (maskOf x.2.ubcCheck b') x.1 x'.1 b b' SHA1_DVS)
      (compress1L x b) (compress1L x' b') := by
  have hc2 : x.2.ubcCheck = x'.2.ubcCheck := congrArg (·.2.1) hc
  have R := ready x.1 x.2 b
  have R' := ready x'.1 x'.2 b'
  have e : (compressionStates x.1 (wordBE 32 b) x.2.m1).ihv = Spec.Sha1.compress x.1 b := (compressionStates_spec x.1 b x.2.m1).1
  have e' : (compressionStates x'.1 (wordBE 32 b') x'.2.m1).ihv = Spec.Sha1.compress x'.1 b' := (compressionStates_spec x'.1 b' x'.2.m1).1
  unfold compress1L
  obtain ⟨dvs, hdvs, hg⟩ : ∃ l, l = SHA1_DVS ∧ ∀ i ∈ l, i ∈ SHA1_DVS ∧ i.maskb < 32 ∧ i.dm.length = 80 := ⟨_, rfl, dvs_good⟩
  rw [← hdvs]
  refine (Reads.of_rel (Rel.load (by simp [Len]) (hb.trans hb'.symm) fun _ _ h => Rel.fromBe h)).bind fun m m' hm hm' hL => ?_
  rw [loadL_val hb, Option.some.injEq] at hm
  rw [loadL_val hb', Option.some.injEq] at hm'
  subst hm hm'
  refine (Reads.of_rel (compressionStatesL_rel hL (by simp [Len]))).bind fun r r' hr hr' _ => ?_
  rw [statesL_val, Option.some.injEq] at hr hr'
  subst hr hr'
  generalize compressionStates x.1 (wordBE 32 b) x.2.m1 = S at R e ⊢
  generalize compressionStates x'.1 (wordBE 32 b') x'.2.m1 = S' at R' e' ⊢
  refine (Reads.of_rel (arr80L_rel S.w S'.w)).bind fun m m' hm hm' _ => ?_
  have hm := (arr80_eq _).symm.trans hm
  have hm' := (arr80_eq _).symm.trans hm'
  cases hm; cases hm'
  refine maskL_reads.bind fun k k' hk hk' _ => ?_
  have hk := maskL_value R hk
  have hk' := maskL_value R' hk'
  dsimp only at hk hk'
  rw [← hc2] at hk'
  subst hk hk'
  refine Reads.branch (fun _ _ => ?_) fun p q => ?_
  · dsimp only [States.toC]
    rw [e, e']
    exact tryDvsL_reads dvs hg R R' hc
  · simp only [ne_eq, Decidable.not_not] at p q
    rw [p, q]
    exact Reads.pure (agree_zero ..)

/-- Without the filter. -/
theorem compress1L_rel {x x' : V5 W32 × Detection} (hc : x.2.cfg = x'.2.cfg) (hu : x.2.ubcCheck = false) {b b' : Bytes} (hb : b.length = 64)
    (hb' : b'.length = 64) (hA : Agree x.2.reducedRoundCollision 0xFFFFFFFF#32 0xFFFFFFFF#32 x.1 x'.1 b b' SHA1_DVS) :
    Rel Any (compress1L x b) (compress1L x' b') := by
  have hc2 : x.2.ubcCheck = x'.2.ubcCheck := congrArg (·.2.1) hc
  have R := ready x.1 x.2 b
  have R' := ready x'.1 x'.2 b'
  have e : (compressionStates x.1 (wordBE 32 b) x.2.m1).ihv = Spec.Sha1.compress x.1 b := (compressionStates_spec x.1 b x.2.m1).1
  have e' : (compressionStates x'.1 (wordBE 32 b') x'.2.m1).ihv = Spec.Sha1.compress x'.1 b' := (compressionStates_spec x'.1 b' x'.2.m1).1
  unfold compress1L
  obtain ⟨dvs, hdvs, hg⟩ : ∃ l, l = SHA1_DVS ∧ ∀ i ∈ l, i ∈ SHA1_DVS ∧ i.maskb < 32 ∧ i.dm.length = 80 := ⟨_, rfl, dvs_good⟩
  rw [← hdvs] at hA ⊢
  refine (Rel.load (by simp [Len]) (hb.trans hb'.symm) fun _ _ h => Rel.fromBe h).bind_val fun m m' hm hm' hL => ?_
  rw [loadL_val hb, Option.some.injEq] at hm
  rw [loadL_val hb', Option.some.injEq] at hm'
  subst hm hm'
  refine (compressionStatesL_rel hL (by simp [Len])).bind_val fun r r' hr hr' _ => ?_
  rw [statesL_val, Option.some.injEq] at hr hr'
  subst hr hr'
  generalize compressionStates x.1 (wordBE 32 b) x.2.m1 = S at R e ⊢
  generalize compressionStates x'.1 (wordBE 32 b') x'.2.m1 = S' at R' e' ⊢
  refine (arr80L_rel S.w S'.w).bind_val fun m m' hm hm' _ => ?_
  have hm := (arr80_eq _).symm.trans hm
  have hm' := (arr80_eq _).symm.trans hm'
  cases hm; cases hm'
  refine Rel.bind_val (R := Any) ?_ fun k k' hk hk' _ => ?_
  · refine Rel.branch_of (p := x.2.ubcCheck = true) (q := x'.2.ubcCheck = true) (by rw [hc2]) (fun p _ => ?_) fun _ _ => Rel.pure trivial
    rw [hu] at p; cases p
  have hk := maskL_value R hk
  have hk' := maskL_value R' hk'
  dsimp only at hk hk'
  rw [← hc2] at hk'
  simp only [maskOf, hu, Bool.false_eq_true, if_false] at hk hk'
  subst hk hk'
  refine Rel.branch Iff.rfl ?_ (Rel.pure trivial)
  dsimp only [States.toC]
  rw [e, e']
  exact tryDvsL_rel dvs hg R R' hc hA

end Hashes.Sha1Checked
