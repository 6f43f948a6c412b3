import Verif.Props.Leak
import Verif.Proof.Leak.Sha1Checked
import Verif.Props.Sha1Checked
/-
C73: what an observer of the memory accesses and branches learns from the collision-detecting SHA-1 (Verif/Leak/Sha1Checked.lean, with the
observations of C64).  The specification of the decisions is that of C31-C33: Spec/Sha1Cd.lean and Spec/Ubc.lean.
-/
namespace Hashes
open Leak Sha1Checked

/-- Vector `k` is looked at: with the filter, its bit conditions hold. -/
def Considered (ubc : Bool) (B : Bytes) (k : Nat) : Prop :=
  ubc = true → ∀ c ∈ Spec.Ubc.conds.getD k [], Spec.Ubc.holds (Spec.Sha1Cd.W B) c = true

/-- Block `B` at chaining value `H` and block `B'` at `H'` are judged alike: for every vector before which none explains `B`, either both are
looked at with the same outcome or neither is. -/
def JudgedAlike (ubc red : Bool) (H : V5 W32) (B : Bytes) (H' : V5 W32) (B' : Bytes) : Prop :=
  ∀ k v, Spec.Sha1Cd.vectors[k]? = some v →
    (∀ j u, j < k → Spec.Sha1Cd.vectors[j]? = some u → ¬ (Considered ubc B j ∧ Spec.Sha1Cd.Explains red H B u)) →
    (Considered ubc B k ↔ Considered ubc B' k) ∧
    (Considered ubc B k → (Spec.Sha1Cd.Explains false H B v ↔ Spec.Sha1Cd.Explains false H' B' v) ∧
      (Spec.Sha1Cd.Explains red H B v ↔ Spec.Sha1Cd.Explains red H' B' v))

/-- Chaining value before block `i`. -/
noncomputable def checkedChain (safe ubc red : Bool) (H : V5 W32) (l : List Bytes) (i : Nat) : V5 W32 :=
  ((l.take i).foldl (Spec.Sha1Cd.step safe ubc red) (H, false)).1

theorem step_fst (safe ubc red : Bool) (H : V5 W32) (f g : Bool) (B : Bytes) :
    (Spec.Sha1Cd.step safe ubc red (H, f) B).1 = (Spec.Sha1Cd.step safe ubc red (H, g) B).1 := by
  unfold Spec.Sha1Cd.step
  dsimp only
  split <;> rfl

theorem chain_fst (safe ubc red : Bool) (l : List Bytes) (x y : V5 W32 × Bool) (h : x.1 = y.1) :
    (l.foldl (Spec.Sha1Cd.step safe ubc red) x).1 = (l.foldl (Spec.Sha1Cd.step safe ubc red) y).1 := by
  induction l generalizing x y with
  | nil => exact h
  | cons B l ih =>
    obtain ⟨a, f⟩ := x
    obtain ⟨b, g⟩ := y
    cases h
    exact ih _ _ (step_fst ..)

theorem mask_considered (ubc : Bool) (B : Bytes) {k : Nat} (hk : k < 32) : (maskOf ubc B).getLsbD k = true ↔ Considered ubc B k := by
  unfold maskOf Considered
  cases ubc
  · have : ∀ k < 32, (0xFFFFFFFF#32).getLsbD k = true := by decide
    simp [this k hk]
  · simp only [if_true, ubcCheck_bit _ hk, List.all_eq_true, true_implies]; rfl

theorem agree_iff {red : Bool} {mask mask' : W32} {H H' : V5 W32} {B B' : Bytes} (l : List Info) : Agree red mask mask' H H' B B' l ↔
    ∀ (k : Nat) (dv : Info), l[k]? = some dv → (∀ j u, j < k → l[j]? = some u → ¬ (mask.getLsbD u.maskb = true ∧ Fits red H B u)) →
      (mask.getLsbD dv.maskb = true ↔ mask'.getLsbD dv.maskb = true) ∧
      (mask.getLsbD dv.maskb = true → (Fits false H B dv ↔ Fits false H' B' dv) ∧ (Fits red H B dv ↔ Fits red H' B' dv)) := by
  induction l with
  | nil => exact iff_of_true trivial (by simp)
  | cons d l ih =>
    rw [Agree, ih]
    constructor
    · rintro ⟨a, b, c⟩ k dv hk hj
      cases k with
      | zero => cases hk; exact ⟨a, b⟩
      | succ k =>
        exact c (hj 0 d (Nat.succ_pos _) rfl) k dv hk fun j u hjk hu => hj (j + 1) u (Nat.succ_lt_succ hjk) hu
    · intro h
      obtain ⟨a, b⟩ := h 0 d rfl fun j u hj => absurd hj (Nat.not_lt_zero _)
      refine ⟨a, b, fun hn k dv hk hj => h (k + 1) dv hk fun j u hjk hu => ?_⟩
      cases j with
      | zero => cases hu; exact hn
      | succ j => exact hj j u (Nat.lt_of_succ_lt_succ hjk) hu

theorem judged_iff {ubc red : Bool} {H H' : V5 W32} {B B' : Bytes} :
    Agree red (maskOf ubc B) (maskOf ubc B') H H' B B' SHA1_DVS ↔ JudgedAlike ubc red H B H' B' := by
  have hlen : SHA1_DVS.length = 32 := rfl
  have hlen' := length_vectors
  have key : ∀ {k : Nat} {i}, SHA1_DVS[k]? = some i → ∃ v, Spec.Sha1Cd.vectors[k]? = some v ∧ k < 32 ∧ i.maskb = k ∧
      ∀ r H B, Fits r H B i ↔ Spec.Sha1Cd.Explains r H B v := by
    intro k i h
    have hk : k < 32 := by
      obtain ⟨h, -⟩ := List.getElem?_eq_some_iff.mp h
      omega
    obtain ⟨i', v, h1, h2, h3, h4, h5⟩ := dvs_get hk
    rw [h, Option.some.injEq] at h1
    subst h1
    refine ⟨v, h2, hk, h3, fun r H B => ?_⟩
    unfold Fits Spec.Sha1Cd.Explains
    rw [h4, h5]; rfl
  have back : ∀ {k : Nat} {v}, Spec.Sha1Cd.vectors[k]? = some v → ∃ i, SHA1_DVS[k]? = some i := by
    intro k v h
    have hk : k < 32 := by
      obtain ⟨h, -⟩ := List.getElem?_eq_some_iff.mp h
      omega
    obtain ⟨i', v, h1, -⟩ := dvs_get hk
    exact ⟨i', h1⟩
  rw [agree_iff]
  generalize SHA1_DVS = dvs at key back
  constructor
  · intro h k v hv hj
    obtain ⟨i, hi⟩ := back hv
    obtain ⟨v', hv', hk, e, f⟩ := key hi
    rw [hv, Option.some.injEq] at hv'
    subst hv'
    have := h k i hi fun j u hjk hu hn => by
      obtain ⟨w, hw, hk', e', f'⟩ := key hu
      rw [e', mask_considered ubc B hk', f'] at hn
      exact hj j w hjk hw hn
    simpa only [e, mask_considered ubc B hk, mask_considered ubc B' hk, f] using this
  · intro h k i hi hj
    obtain ⟨v, hv, hk, e, f⟩ := key hi
    have := h k v hv fun j u hjk hu hn => by
      obtain ⟨i', hi'⟩ := back hu
      obtain ⟨w, hw, hk', e', f'⟩ := key hi'
      rw [hu, Option.some.injEq] at hw
      subst hw
      refine hj j i' hjk hi' ?_
      rw [e', mask_considered ubc B hk', f']
      exact hn
    simpa only [e, mask_considered ubc B hk, mask_considered ubc B' hk, f] using this

/-- Same configuration. -/
def SameConfig (c c' : Detection) : Prop :=
  c.safeHash = c'.safeHash ∧ c.ubcCheck = c'.ubcCheck ∧ c.reducedRoundCollision = c'.reducedRoundCollision

theorem SameConfig.cfg {c c' : Detection} (h : SameConfig c c') : c.cfg = c'.cfg := by
  rw [Detection.cfg, Detection.cfg, h.1, h.2.1, h.2.2]

/-- All blocks, block by block. -/
theorem chain_forall {safe ubc red : Bool} {H H' : V5 W32} {b b' : Bytes} {l l' : List Bytes} :
    (∀ i (h : i < (b :: l).length) (h' : i < (b' :: l').length), JudgedAlike ubc red (checkedChain safe ubc red H (b :: l) i) (b :: l)[i]
      (checkedChain safe ubc red H' (b' :: l') i) (b' :: l')[i]) ↔
    JudgedAlike ubc red H b H' b' ∧ ∀ i (h : i < l.length) (h' : i < l'.length),
      JudgedAlike ubc red (checkedChain safe ubc red (Spec.Sha1Cd.step safe ubc red (H, false) b).1 l i) l[i]
        (checkedChain safe ubc red (Spec.Sha1Cd.step safe ubc red (H', false) b').1 l' i) l'[i] := by
  have e : ∀ (H : V5 W32) b (l : List Bytes) i, checkedChain safe ubc red H (b :: l) (i + 1) =
      checkedChain safe ubc red (Spec.Sha1Cd.step safe ubc red (H, false) b).1 l i := fun H b l i => chain_fst safe ubc red (l.take i)
        (Spec.Sha1Cd.step safe ubc red (H, false) b) ((Spec.Sha1Cd.step safe ubc red (H, false) b).1, false) rfl
  constructor
  · intro h
    refine ⟨h 0 (Nat.succ_pos _) (Nat.succ_pos _), fun i hi hi' => ?_⟩
    have := h (i + 1) (Nat.succ_lt_succ hi) (Nat.succ_lt_succ hi')
    rw [e, e] at this
    exact this
  · rintro ⟨h0, h⟩ i hi hi'
    cases i with
    | zero => exact h0
    | succ i => rw [e, e]; exact h i (Nat.lt_of_succ_lt_succ hi) (Nat.lt_of_succ_lt_succ hi')

/-- The next state of the code is the next state of the specification. -/
theorem next_state (x : V5 W32 × Detection) (b : Bytes) : (compress1 x b).2.cfg = x.2.cfg ∧
    (compress1 x b).1 = (Spec.Sha1Cd.step x.2.safeHash x.2.ubcCheck x.2.reducedRoundCollision (x.1, false) b).1 := by
  obtain ⟨h1, h2⟩ := compress1_spec x.1 x.2 b
  exact ⟨h1, (congrArg (·.1) h2).trans (step_fst ..)⟩

/-- C73. Forgetting the observations gives the program of C60, whose result is that of C31. -/
theorem C73_values (x : V5 W32 × Detection) (l : List Bytes) : (compressL x l).val = compressC x l := compressL_val x l

/-- What is told of the blocks. -/
theorem compressL_judged : ∀ (l l' : List Bytes) (x x' : V5 W32 × Detection), x.2.cfg = x'.2.cfg → SameShape 64 l l' →
    Reads (fun _ _ => ∀ i (h : i < l.length) (h' : i < l'.length), JudgedAlike x.2.ubcCheck x.2.reducedRoundCollision
      (checkedChain x.2.safeHash x.2.ubcCheck x.2.reducedRoundCollision x.1 l i) l[i]
      (checkedChain x.2.safeHash x.2.ubcCheck x.2.reducedRoundCollision x'.1 l' i) l'[i]) (compressL x l) (compressL x' l') := by
  intro l
  induction l with
  | nil => 
    intro l' x x' _ h
    cases l' with
    | nil => exact Reads.pure fun i h => absurd h (Nat.not_lt_zero _)
    | cons => cases h.1
  | cons b l ih =>
    intro l' x x' hc h
    cases l' with
    | nil => cases h.1
    | cons b' l' =>
      obtain ⟨h0, hl, hl'⟩ := h
      have hb := hl b List.mem_cons_self
      have hb' := hl' b' List.mem_cons_self
      unfold compressL
      rw [List.foldlM_cons, List.foldlM_cons]
      refine (compress1L_reads hc hb hb').bind fun y y' hy hy' hA => ?_
      rw [compress1L_val, compress1C_eq _ hb, Option.some.injEq] at hy
      rw [compress1L_val, compress1C_eq _ hb', Option.some.injEq] at hy'
      subst hy hy'
      obtain ⟨c1, c2⟩ := next_state x b
      obtain ⟨c1', c2'⟩ := next_state x' b'
      have hx1 : (compress1 x b).2.safeHash = x.2.safeHash := congrArg (·.1) c1
      have hx2 : (compress1 x b).2.ubcCheck = x.2.ubcCheck := congrArg (·.2.1) c1
      have hx3 : (compress1 x b).2.reducedRoundCollision = x.2.reducedRoundCollision := congrArg (·.2.2) c1
      have e1 : x'.2.safeHash = x.2.safeHash := (congrArg (·.1) hc).symm
      have e2 : x'.2.ubcCheck = x.2.ubcCheck := (congrArg (·.2.1) hc).symm
      have e3 : x'.2.reducedRoundCollision = x.2.reducedRoundCollision := (congrArg (·.2.2) hc).symm
      have := ih l' (compress1 x b) (compress1 x' b') (by rw [c1, c1', hc])
        ⟨Nat.succ.inj h0, fun c hc => hl c (List.mem_cons_of_mem _ hc), fun c hc => hl' c (List.mem_cons_of_mem _ hc)⟩
      refine this.mono fun _ _ _ _ hJ => ?_
      rw [hx1, hx2, hx3, c2, c2', e1, e2, e3] at hJ
      exact chain_forall.2 ⟨judged_iff.1 hA, hJ⟩

/-- C73. Two runs with the same configuration on as many blocks that show the same judge their blocks alike: in particular they find the
same and, where nothing is found, the same bit conditions hold. -/
theorem C73_shown (x x' : V5 W32 × Detection) (hc : SameConfig x.2 x'.2) (l l' : List Bytes) (h : SameShape 64 l l')
    (ho : (compressL x l).obs = (compressL x' l').obs) (i : Nat) (hi : i < l.length) (hi' : i < l'.length) :
    JudgedAlike x.2.ubcCheck x.2.reducedRoundCollision
      (checkedChain x.2.safeHash x.2.ubcCheck x.2.reducedRoundCollision x.1 l i) l[i]
      (checkedChain x.2.safeHash x.2.ubcCheck x.2.reducedRoundCollision x'.1 l' i) l'[i] := by
  obtain ⟨y, hy⟩ : ∃ y, (compressL x l).val = some y := ⟨_, (compressL_val x l).trans (compressC_eq x l h.2.1)⟩
  obtain ⟨y', hy'⟩ : ∃ y, (compressL x' l').val = some y := ⟨_, (compressL_val x' l').trans (compressC_eq x' l' h.2.2)⟩
  exact (compressL_judged l l' x x' hc.cfg h y y' [] [] hy hy' (by rw [ho])).2 i hi hi'

theorem JudgedAlike.hit {ubc red : Bool} {H H' : V5 W32} {B B' : Bytes} (h : JudgedAlike ubc red H B H' B') :
    Spec.Sha1Cd.Hit ubc red H B ↔ Spec.Sha1Cd.Hit ubc red H' B' := by
  constructor
  · rintro ⟨k, hk, hv⟩
    induction k using Nat.strongRecOn with
    | ind k ih =>
      obtain ⟨v, hv, hc, he⟩ := hv
      by_cases hj : ∃ j, j < k ∧ ∃ u, Spec.Sha1Cd.vectors[j]? = some u ∧ Considered ubc B j ∧ Spec.Sha1Cd.Explains red H B u
      · obtain ⟨j, hjk, hu⟩ := hj
        exact ih j hjk (by omega) hu
      · obtain ⟨h1, h2⟩ := h k v hv fun j u hjk hu hh => hj ⟨j, hjk, u, hu, hh⟩
        exact ⟨k, hk, v, hv, h1.1 hc, (h2 hc).2.1 he⟩
  · rintro ⟨k, hk, v, hv, hc, he⟩
    by_cases hn : Spec.Sha1Cd.Hit ubc red H B
    · exact hn
    · obtain ⟨h1, h2⟩ := h k v hv fun j u hjk hu hh => hn ⟨j, by omega, u, hu, hh⟩
      have hc' := h1.2 hc
      exact ⟨k, hk, v, hv, hc', (h2 hc').2.2 he⟩

/-- Whether an attack is found, block by block. -/
theorem found_iff (safe ubc red : Bool) (l : List Bytes) (H : V5 W32) (f : Bool) :
    (l.foldl (Spec.Sha1Cd.step safe ubc red) (H, f)).2 = true ↔
      f = true ∨ ∃ i, ∃ h : i < l.length, Spec.Sha1Cd.Hit ubc red (checkedChain safe ubc red H l i) l[i] := by
  induction l generalizing H f with
  | nil => simp
  | cons B l ih =>
    have e : ∀ i, checkedChain safe ubc red H (B :: l) (i + 1) = checkedChain safe ubc red (Spec.Sha1Cd.step safe ubc red (H, f) B).1 l i :=
      fun i => chain_fst safe ubc red (l.take i) (Spec.Sha1Cd.step safe ubc red (H, false) B) ((Spec.Sha1Cd.step safe ubc red (H, f) B).1, false)
        (step_fst ..)
    rw [List.foldl_cons, show Spec.Sha1Cd.step safe ubc red (H, f) B = ((Spec.Sha1Cd.step safe ubc red (H, f) B).1, (Spec.Sha1Cd.step safe ubc red (H, f) B).2) from rfl, ih]
    have e2 : (Spec.Sha1Cd.step safe ubc red (H, f) B).2 = true ↔ Spec.Sha1Cd.Hit ubc red H B ∨ f = true := by
      unfold Spec.Sha1Cd.step
      by_cases hh : Spec.Sha1Cd.Hit ubc red H B
      · rw [if_pos hh]; simp [hh]
      · rw [if_neg hh]; simp [hh]
    rw [e2]
    constructor
    · rintro ((h | h) | ⟨i, hi, h⟩)
      · exact .inr ⟨0, Nat.succ_pos _, h⟩
      · exact .inl h
      · exact .inr ⟨i + 1, Nat.succ_lt_succ hi, by rw [e]; exact h⟩
    · rintro (h | ⟨i, hi, h⟩)
      · exact .inl (.inr h)
      · cases i with
        | zero => exact .inl (.inl h)
        | succ i => rw [e] at h; exact .inr ⟨i, Nat.lt_of_succ_lt_succ hi, h⟩

/-- C73. Two runs that show the same both find an attack or neither does. -/
theorem C73_found (x x' : V5 W32 × Detection) (hc : SameConfig x.2 x'.2) (hf : x.2.foundCollision = x'.2.foundCollision) (l l' : List Bytes)
    (h : SameShape 64 l l') (ho : (compressL x l).obs = (compressL x' l').obs) :
    (compress x l).2.foundCollision = (compress x' l').2.foundCollision := by
  have hJ := C73_shown x x' hc l l' h ho
  have e := congrArg (·.2) (compress_spec l x.1 x.2).2
  have e' := congrArg (·.2) (compress_spec l' x'.1 x'.2).2
  have f := found_iff x.2.safeHash x.2.ubcCheck x.2.reducedRoundCollision l x.1 x.2.foundCollision
  have f' := found_iff x'.2.safeHash x'.2.ubcCheck x'.2.reducedRoundCollision l' x'.1 x'.2.foundCollision
  rw [← hc.1, ← hc.2.1, ← hc.2.2] at e' f'
  rw [← hf] at e' f'
  refine Bool.eq_iff_iff.mpr ((Iff.of_eq (congrArg (· = true) e)).trans (f.trans (Iff.trans ?_ (f'.symm.trans (Iff.of_eq (congrArg (· = true) e'.symm))))))
  refine or_congr Iff.rfl ⟨?_, ?_⟩
  · rintro ⟨i, hi, hh⟩
    have hi' : i < l'.length := h.1 ▸ hi
    exact ⟨i, hi', (hJ i hi hi').hit.1 hh⟩
  · rintro ⟨i, hi', hh⟩
    have hi : i < l.length := h.1 ▸ hi'
    exact ⟨i, hi, (hJ i hi hi').hit.2 hh⟩

/-- C73. Without the filter that is all that is shown. -/
theorem C73_unfiltered (x x' : V5 W32 × Detection) (hc : SameConfig x.2 x'.2) (hu : x.2.ubcCheck = false) (l l' : List Bytes)
    (h : SameShape 64 l l') :
    (compressL x l).obs = (compressL x' l').obs ↔ ∀ i (_ : i < l.length) (_ : i < l'.length), JudgedAlike false x.2.reducedRoundCollision
      (checkedChain x.2.safeHash false x.2.reducedRoundCollision x.1 l i) l[i]
      (checkedChain x.2.safeHash false x.2.reducedRoundCollision x'.1 l' i) l'[i] := by
  constructor
  · intro ho i hi hi'
    have := C73_shown x x' hc l l' h ho i hi hi'
    rwa [hu] at this
  · have hc := hc.cfg
    intro hJ
    rename_i hc0
    clear hc0
    refine Rel.obs (R := Any) ?_
    induction l generalizing l' x x' with
    | nil =>
      cases l' with
      | nil => exact Rel.pure trivial
      | cons => cases h.1
    | cons b l ih =>
      cases l' with
      | nil => cases h.1
      | cons b' l' =>
        obtain ⟨h0, hl, hl'⟩ := h
        have hb := hl b List.mem_cons_self
        have hb' := hl' b' List.mem_cons_self
        obtain ⟨hJ0, hJ⟩ := chain_forall.1 hJ
        unfold compressL
        rw [List.foldlM_cons, List.foldlM_cons]
        refine (compress1L_rel hc hu hb hb' (judged_iff.2 hJ0)).bind_val fun y y' hy hy' _ => ?_
        rw [compress1L_val, compress1C_eq _ hb, Option.some.injEq] at hy
        rw [compress1L_val, compress1C_eq _ hb', Option.some.injEq] at hy'
        subst hy hy'
        obtain ⟨c1, c2⟩ := next_state x b
        obtain ⟨c1', c2'⟩ := next_state x' b'
        have hx1 : (compress1 x b).2.safeHash = x.2.safeHash := congrArg (·.1) c1
        have hx2 : (compress1 x b).2.ubcCheck = x.2.ubcCheck := congrArg (·.2.1) c1
        have hx3 : (compress1 x b).2.reducedRoundCollision = x.2.reducedRoundCollision := congrArg (·.2.2) c1
        have e1 : x'.2.safeHash = x.2.safeHash := (congrArg (·.1) hc).symm
        have e2 : x'.2.ubcCheck = x.2.ubcCheck := (congrArg (·.2.1) hc).symm
        have e3 : x'.2.reducedRoundCollision = x.2.reducedRoundCollision := (congrArg (·.2.2) hc).symm
        refine ih (compress1 x b) (compress1 x' b') (hx2.trans hu) l'
          ⟨Nat.succ.inj h0, fun c hc => hl c (List.mem_cons_of_mem _ hc), fun c hc => hl' c (List.mem_cons_of_mem _ hc)⟩ (by rw [c1, c1', hc]) ?_
        rw [hx1, hx3, c2, c2', e1, e2, e3, hu]
        exact hJ

/-- C73. Without the filter, messages in which no attack is found cannot be told apart. -/
theorem C73_quiet (x x' : V5 W32 × Detection) (hc : SameConfig x.2 x'.2) (hu : x.2.ubcCheck = false) (l l' : List Bytes) (h : SameShape 64 l l')
    (hn : ∀ i (hi : i < l.length), ¬ Spec.Sha1Cd.Hit false x.2.reducedRoundCollision ((l.take i).foldl Spec.Sha1.compress x.1) l[i])
    (hn' : ∀ i (hi : i < l'.length), ¬ Spec.Sha1Cd.Hit false x.2.reducedRoundCollision ((l'.take i).foldl Spec.Sha1.compress x'.1) l'[i]) :
    (compressL x l).obs = (compressL x' l').obs := by
  rw [C73_unfiltered x x' hc hu l l' h]
  have key : ∀ (H : V5 W32) (l : List Bytes), (∀ i (hi : i < l.length), ¬ Spec.Sha1Cd.Hit false x.2.reducedRoundCollision
      ((l.take i).foldl Spec.Sha1.compress H) l[i]) → ∀ i (hi : i < l.length) (k : Nat) v, Spec.Sha1Cd.vectors[k]? = some v →
      ∀ r, (r = true → x.2.reducedRoundCollision = true) →
      ¬ Spec.Sha1Cd.Explains r (checkedChain x.2.safeHash false x.2.reducedRoundCollision H l i) l[i] v := by
    intro H l hn i hi k v hv r hr ⟨H', h1, h2⟩
    have e : checkedChain x.2.safeHash false x.2.reducedRoundCollision H l i = (l.take i).foldl Spec.Sha1.compress H := by
      refine (foldl_step _ _ _ (l.take i) H false).2 (.inr ?_)
      rintro ⟨j, hj, hh⟩
      have hj' : j < l.length := by rw [List.length_take] at hj; omega
      refine hn j hj' ?_
      have e1 : (l.take i).take j = l.take j := by rw [List.take_take, Nat.min_eq_left (by rw [List.length_take] at hj; omega)]
      rw [e1, List.getElem_take] at hh
      exact hh
    rw [e] at h1 h2
    have hk : k < 32 := by
      obtain ⟨h, -⟩ := List.getElem?_eq_some_iff.mp hv
      rw [length_vectors] at h; exact h
    exact hn i hi ⟨k, hk, v, hv, by simp, H', h1, h2.imp id fun h => ⟨hr h.1, h.2⟩⟩
  intro i hi hi' k v hv _
  refine ⟨iff_of_true (by simp [Considered]) (by simp [Considered]), fun _ => ⟨iff_of_false ?_ ?_, iff_of_false ?_ ?_⟩⟩
  · exact key _ l hn i hi k v hv false (by simp)
  · exact key _ l' hn' i hi' k v hv false (by simp)
  · exact key _ l hn i hi k v hv _ id
  · exact key _ l' hn' i hi' k v hv _ id

/-- C73. With the filter, the default, the observations give away, for a block in which no attack is found, for every vector
whether all its bit conditions hold: facts about the bits of the expanded message. -/
theorem C73_conditions (x x' : V5 W32 × Detection) (hc : SameConfig x.2 x'.2) (hu : x.2.ubcCheck = true) (l l' : List Bytes) (h : SameShape 64 l l')
    (ho : (compressL x l).obs = (compressL x' l').obs) (i : Nat) (hi : i < l.length) (hi' : i < l'.length)
    (hn : ¬ Spec.Sha1Cd.Hit true x.2.reducedRoundCollision (checkedChain x.2.safeHash true x.2.reducedRoundCollision x.1 l i) l[i])
    (k : Nat) (hk : k < 32) :
    (∀ c ∈ Spec.Ubc.conds.getD k [], Spec.Ubc.holds (Spec.Sha1Cd.W l[i]) c = true) ↔
      ∀ c ∈ Spec.Ubc.conds.getD k [], Spec.Ubc.holds (Spec.Sha1Cd.W l'[i]) c = true := by
  have hJ := C73_shown x x' hc l l' h ho i hi hi'
  rw [hu] at hJ
  have hl : k < Spec.Sha1Cd.vectors.length := by rw [length_vectors]; exact hk
  have := (hJ k _ (List.getElem?_eq_getElem hl) fun j u hj hu' hh => hn ⟨j, by omega, u, hu', hh.1, hh.2⟩).1
  simpa [Considered] using this

/-! Concrete cases. -/

theorem SameShape.one {n : Nat} {b b' : Bytes} (h : b.length = n) (h' : b'.length = n) : SameShape n [b] [b'] :=
  ⟨rfl, fun _ hc => List.mem_singleton.mp hc ▸ h, fun _ hc => List.mem_singleton.mp hc ▸ h'⟩

/-- An all-zero block violates a condition of every vector; a block of bytes 8 none of vector 6. -/
theorem conds_zero : ((List.range 32).all fun k => !(Spec.Ubc.conds.getD k []).all fun c => Spec.Ubc.holds (Spec.Sha1Cd.W (List.replicate 64 0)) c) = true := by
  decide +kernel
theorem conds_eight : (Spec.Ubc.conds.getD 6 []).all (fun c => Spec.Ubc.holds (Spec.Sha1Cd.W (List.replicate 64 8)) c) = true := by decide +kernel

/-- With the filter the two are told apart, whatever the chaining value. -/
example (x : V5 W32 × Detection) (hu : x.2.ubcCheck = true) :
    (compressL x [List.replicate 64 0]).obs ≠ (compressL x [List.replicate 64 8]).obs := by
  intro ho
  have hz : ∀ k < 32, ¬ ∀ c ∈ Spec.Ubc.conds.getD k [], Spec.Ubc.holds (Spec.Sha1Cd.W (List.replicate 64 0)) c = true := by
    intro k hk h
    have := List.all_eq_true.mp conds_zero k (List.mem_range.mpr hk)
    rw [List.all_eq_true.mpr h] at this
    exact Bool.noConfusion this
  have hs : SameShape 64 [List.replicate 64 (0 : Byte)] [List.replicate 64 (8 : Byte)] :=
    .one List.length_replicate List.length_replicate
  refine hz 6 (by decide) ((C73_conditions x x ⟨rfl, rfl, rfl⟩ hu _ _ hs ho 0 Nat.one_pos Nat.one_pos ?_ 6 (by decide)).2
    (List.all_eq_true.mp conds_eight))
  rintro ⟨k, hk, v, hv, hc, -⟩
  exact hz k hk (hc rfl)

/-- The detection state of a hasher without the filter. -/
def unfiltered : Detection := ⟨true, false, false, false, zero5, zero5, zero80, zero80, zero5, zero5⟩

theorem quiet_zero : (compress1 (Sha1.H0, unfiltered) (List.replicate 64 0)).2.foundCollision = false := by decide +kernel
theorem quiet_eight : (compress1 (Sha1.H0, unfiltered) (List.replicate 64 8)).2.foundCollision = false := by decide +kernel

theorem no_hit {H : V5 W32} {c : Detection} {B : Bytes} (h : (compress1 (H, c) B).2.foundCollision = false) :
    ¬ Spec.Sha1Cd.Hit c.ubcCheck c.reducedRoundCollision H B := by
  intro hh
  have := congrArg (·.2) (compress1_spec H c B).2
  dsimp only at this
  rw [Spec.Sha1Cd.step, if_pos hh, h] at this
  exact Bool.noConfusion this

/-- The detection state of a default hasher. -/
def filtered : Detection := ⟨true, true, false, false, zero5, zero5, zero80, zero80, zero5, zero5⟩

/-- Chaining value before the last block of `mbles`. -/
def beforeLast : V5 W32 := ⟨1926507881, 2791397533, 1945903127, 1025363457, 1282937788⟩

theorem length_last : (mbles.drop 576).length = 64 := by decide +kernel
theorem found_mbles : (compress (beforeLast, filtered) [mbles.drop 576]).2.foundCollision = true := by decide +kernel
theorem found_zeros : (compress (beforeLast, filtered) [List.replicate 64 0]).2.foundCollision = false := by decide +kernel

/-- Without it they are not. -/
example : (compressL (Sha1.H0, unfiltered) [List.replicate 64 0]).obs = (compressL (Sha1.H0, unfiltered) [List.replicate 64 8]).obs := by
  have one : ∀ {B : Bytes}, ¬ Spec.Sha1Cd.Hit false false Sha1.H0 B → ∀ i (hi : i < [B].length),
      ¬ Spec.Sha1Cd.Hit false false (([B].take i).foldl Spec.Sha1.compress Sha1.H0) [B][i] := by
    intro B hB i hi
    cases i with
    | zero => exact hB
    | succ i => exact absurd hi (by simp)
  exact C73_quiet (Sha1.H0, unfiltered) (Sha1.H0, unfiltered) ⟨rfl, rfl, rfl⟩ rfl _ _
    (.one List.length_replicate List.length_replicate)
    (one (no_hit (c := unfiltered) quiet_zero)) (one (no_hit (c := unfiltered) quiet_eight))

/-- A block with an attack in it is told apart from a harmless one. -/
example : (compressL (beforeLast, filtered) [mbles.drop 576]).obs ≠ (compressL (beforeLast, filtered) [List.replicate 64 0]).obs := by
  intro ho
  have := C73_found (beforeLast, filtered) (beforeLast, filtered) ⟨rfl, rfl, rfl⟩ rfl _ _
    (.one length_last List.length_replicate) ho
  rw [found_mbles, found_zeros] at this
  exact Bool.noConfusion this

end Hashes
