import Verif.Leak.Sha1CheckedRun
import Verif.Proof.Leak.While
import Verif.Proof.Leak.Hashers
import Verif.Props.LeakSha1
/- The whole collision-detecting SHA-1: forgetting the observations, what they depend on and what they tell. -/
namespace Hashes.Sha1Checked
open Leak

/-! ### Forgetting the observations -/

theorem padL_val (x : V5 W32 × Detection) (buffer : Bytes) (last left : Nat) : (padL x buffer last left).val = padC x buffer last left := by
  simp only [padL, padC, val_branch, val_bind, val_usub, val_slice, val_copy, compressL_val, val_pure]; rfl
theorem putLenL_val (buffer : Bytes) (total : W64) : (putLenL buffer total).val = putLenC buffer total := by
  simp only [putLenL, putLenC, val_bind, val_shr, val_upd]
theorem finalizeL_val (x : V5 W32 × Detection) (total : W64) (lastBlock : Bytes) : (finalizeL x total lastBlock).val = finalizeC x total lastBlock := by
  simp only [finalizeL, finalizeC, val_bind, val_add, val_copy, val_usub, padL_val, val_shl, putLenL_val, compressL_val]
theorem resultL_val (h : V5 W32) (ctx : Option Detection) : (resultL h ctx).val = resultC h ctx := by
  rw [resultL, resultC, val_bind, outBEL_val]
  refine bind_congr fun out => ?_
  cases ctx with
  | none => rfl
  | some c =>
    simp only [val_bind, val_emit, val_branch, val_pure]
    show (if _ then (if _ then _ else _) else _) = some (if _ then (if _ then _ else _) else _)
    split <;> [split; skip] <;> rfl

theorem follows (x : Builder) : Follows (sha1CheckedL x) (sha1CheckedC x) where
  pos := Nat.succ_pos 63
  kind := rfl
  bs := rfl
  init := rfl
  upd := fun s l _ => by
    simp only [sha1CheckedL, sha1CheckedC, val_bind, val_seen]
    refine bind_congr fun n => ?_
    cases s.detection with
    | none => rfl
    | some c => simp only [val_bind, val_emit, compressL_val, val_pure]; rfl
  fin := fun s b wf => by
    simp only [sha1CheckedL, sha1CheckedC]
    cases s.detection with
    | none =>
      simp only [val_bind, val_emit, val_seen, resultL_val]
      refine bind_congr (x := Count.bitLen 64 64 s.blockLen.toNat b.pos) fun n => ?_
      rw [digestPadL_val (bs := 64) wf _ _ (g := fun s b => some (Sha1.compressSoft s [b])) fun _ _ _ => rfl]
    | some c => simp only [val_bind, val_emit, val_seen, finalizeL_val, resultL_val]; rfl

/-! ### States -/

/-- Same configuration and the attack found or not in both. -/
def Alike (x y : V5 W32 × Detection) : Prop := SameConfig x.2 y.2 ∧ x.2.foundCollision = y.2.foundCollision

/-- Same configuration, without the filter. -/
def Plain (x y : V5 W32 × Detection) : Prop := SameConfig x.2 y.2 ∧ x.2.ubcCheck = false

/-- No attack found. -/
def Clean (x : V5 W32 × Detection) : Prop := x.2.foundCollision = false

theorem sameConfig_iff {c c' : Detection} : SameConfig c c' ↔ c.cfg = c'.cfg := by
  simp only [SameConfig, Detection.cfg, Prod.mk.injEq]

theorem compressL_some {x y : V5 W32 × Detection} {l : List Bytes} (hl : BlocksOf 64 l) (h : (compressL x l).val = some y) : y = compress x l := by
  rw [compressL_val, compressC_eq x l hl] at h; cases h; rfl

theorem compress_cfg (x : V5 W32 × Detection) (l : List Bytes) : (compress x l).2.cfg = x.2.cfg := (compress_spec l x.1 x.2).1

theorem compressL_reads {x x' : V5 W32 × Detection} (h : Alike x x') {l l' : List Bytes} (hl : SameShape 64 l l') :
    Reads Alike (compressL x l) (compressL x' l') := by
  obtain ⟨h0, hb, hb'⟩ := hl
  induction l generalizing l' x x' with
  | nil =>
    cases l' with
    | nil => exact Reads.pure h
    | cons => cases h0
  | cons b l ih =>
    cases l' with
    | nil => cases h0
    | cons b' l' =>
      have hb0 := hb b List.mem_cons_self
      have hb0' := hb' b' List.mem_cons_self
      unfold compressL
      rw [List.foldlM_cons, List.foldlM_cons]
      refine (compress1L_reads h.1.cfg hb0 hb0').bind fun y y' hy hy' hA => ?_
      rw [compress1L_val, compress1C_eq _ hb0, Option.some.injEq] at hy
      rw [compress1L_val, compress1C_eq _ hb0', Option.some.injEq] at hy'
      subst hy hy'
      refine ih ⟨?_, ?_⟩ (Nat.succ.inj h0) (fun c hc => hb c (List.mem_cons_of_mem _ hc)) (fun c hc => hb' c (List.mem_cons_of_mem _ hc))
      · rw [sameConfig_iff, (next_state x b).1, (next_state x' b').1, h.1.cfg]
      · have e := congrArg (·.2) (compress1_spec x.1 x.2 b).2
        have e' := congrArg (·.2) (compress1_spec x'.1 x'.2 b').2
        have hh := (judged_iff.1 hA).hit
        dsimp only at e e'
        rw [← h.1.1, ← h.1.2.1, ← h.1.2.2, ← h.2] at e'
        rw [e, e']
        unfold Spec.Sha1Cd.step
        by_cases hit : Spec.Sha1Cd.Hit x.2.ubcCheck x.2.reducedRoundCollision x.1 b
        · rw [if_pos hit, if_pos (hh.1 hit)]
        · rw [if_neg hit, if_neg fun q => hit (hh.2 q)]

theorem compress_clean {x : V5 W32 × Detection} {l : List Bytes} (h : Clean (compress x l)) : Clean x ∧
    ∀ i (hi : i < l.length), ¬ Spec.Sha1Cd.Hit x.2.ubcCheck x.2.reducedRoundCollision (checkedChain x.2.safeHash x.2.ubcCheck x.2.reducedRoundCollision x.1 l i) l[i] := by
  have e := congrArg (·.2) (compress_spec l x.1 x.2).2
  have f := found_iff x.2.safeHash x.2.ubcCheck x.2.reducedRoundCollision l x.1 x.2.foundCollision
  have h : (compress x l).2.foundCollision = false := h
  have e : (compress x l).2.foundCollision = _ := e
  rw [← e, h] at f
  have g : ¬ _ := fun q => absurd (f.2 q) (by simp)
  exact ⟨Bool.eq_false_iff.mpr fun q => g (.inl q), fun i hi q => g (.inr ⟨i, hi, q⟩)⟩

theorem compressL_keep {x y : V5 W32 × Detection} {l : List Bytes} (hl : BlocksOf 64 l) (h : (compressL x l).val = some y) (hc : Clean y) : Clean x := by
  rw [compressL_some hl h] at hc; exact (compress_clean hc).1

theorem compressL_while {x x' : V5 W32 × Detection} (h : Plain x x') {l l' : List Bytes} (hl : SameShape 64 l l') :
    While Clean Clean Plain (compressL x l) (compressL x' l') := by
  intro y y' hy hy' hc hc'
  rw [compressL_some hl.2.1 hy] at hc ⊢
  rw [compressL_some hl.2.2 hy'] at hc' ⊢
  obtain ⟨⟨s1, s2, s3⟩, hu⟩ := h
  refine ⟨?_, ?_, ?_⟩
  · rw [C73_unfiltered x x' ⟨s1, s2, s3⟩ hu l l' hl]
    have n := (compress_clean hc).2
    have n' := (compress_clean hc').2
    rw [← s1, ← s2, ← s3] at n'
    rw [hu] at n n'
    have key : ∀ (H : V5 W32) (B : Bytes), ¬ Spec.Sha1Cd.Hit false x.2.reducedRoundCollision H B → ∀ (k : Nat) v, Spec.Sha1Cd.vectors[k]? = some v →
        ∀ r, (r = true → x.2.reducedRoundCollision = true) → ¬ Spec.Sha1Cd.Explains r H B v := by
      intro H B hn k v hv r hr ⟨H', h1, h2⟩
      have hk : k < 32 := by
        obtain ⟨h, -⟩ := List.getElem?_eq_some_iff.mp hv
        rw [length_vectors] at h; exact h
      exact hn ⟨k, hk, v, hv, by simp, H', h1, h2.imp id fun h => ⟨hr h.1, h.2⟩⟩
    intro i hi hi' k v hv _
    refine ⟨iff_of_true (by simp [Considered]) (by simp [Considered]), fun _ => ⟨iff_of_false ?_ ?_, iff_of_false ?_ ?_⟩⟩
    · exact key _ _ (n i hi) k v hv false (by simp)
    · exact key _ _ (n' i hi') k v hv false (by simp)
    · exact key _ _ (n i hi) k v hv _ id
    · exact key _ _ (n' i hi') k v hv _ id
  · rw [sameConfig_iff, compress_cfg, compress_cfg, ← sameConfig_iff]; exact ⟨s1, s2, s3⟩
  · rw [show (compress x l).2.ubcCheck = x.2.ubcCheck from congrArg (·.2.1) (compress_cfg x l)]; exact hu

/-! ### `finalize` -/

/-- Two buffers of a block. -/
def Full (x y : Bytes) : Prop := x.length = 64 ∧ y.length = 64

theorem copy_length {a v r : Bytes} {i j : Nat} (h : (copy a i j v).val = some r) : r.length = a.length := by
  rw [val_copy, Rs.copy] at h
  split at h
  · next hc =>
    cases h
    rw [List.length_append, List.length_append, List.length_take, List.length_drop]; omega
  · cases h
theorem upd_length {a r : Bytes} {i : Nat} {v : Byte} (h : (upd a i v).val = some r) : r.length = a.length := by
  rw [val_upd, Rs.upd] at h
  split at h
  · cases h; exact List.length_set
  · cases h

theorem keep_left {R S : Bytes → Bytes → Prop} {x y : Leak Bytes} (h : Rel R x y) (hS : ∀ a b, x.val = some a → y.val = some b → S a b) : Rel S x y := by
  refine ⟨h.1, ?_⟩
  have h2 := h.2
  cases hx : x.val with
  | none => rw [hx] at h2; cases hy : y.val with
    | none => exact .none
    | some b => rw [hy] at h2; cases h2
  | some a => rw [hx] at h2; cases hy : y.val with
    | none => rw [hy] at h2; cases h2
    | some b => exact .some (hS a b hx hy)

theorem copy_full {a a' v v' : Bytes} {i j : Nat} (h : Full a a') (hv : Len v v') : Rel Full (copy a i j v) (copy a' i j v') :=
  keep_left (Rel.copy (h.1.trans h.2.symm) rfl rfl hv) fun _ _ hr hr' => ⟨(copy_length hr).trans h.1, (copy_length hr').trans h.2⟩
theorem upd_full {a a' : Bytes} {i : Nat} {v v' : Byte} (h : Full a a') : Rel Full (upd a i v) (upd a' i v') :=
  keep_left (Rel.upd (h.1.trans h.2.symm) rfl) fun _ _ hr hr' => ⟨(upd_length hr).trans h.1, (upd_length hr').trans h.2⟩

theorem putLenL_rel {b b' : Bytes} (h : Full b b') (total : W64) : Rel Full (putLenL b total) (putLenL b' total) := by
  unfold putLenL
  refine Rel.bind (R := Any) (Rel.self _ fun _ => trivial) fun _ _ _ => Rel.bind (upd_full h) fun _ _ h => ?_
  iterate 6 refine Rel.bind (R := Any) (Rel.self _ fun _ => trivial) fun _ _ _ => Rel.bind (upd_full h) fun _ _ h => ?_
  exact upd_full h

theorem putLenL_length {b r : Bytes} {total : W64} (h : (putLenL b total).val = some r) (hb : b.length = 64) : r.length = 64 := by
  have := (putLenL_rel ⟨hb, hb⟩ total).2
  rw [h] at this
  cases this with | some h => exact h.1

theorem one_full {b b' : Bytes} (h : Full b b') : SameShape 64 [b] [b'] := one_shape h.1 h.2

theorem padL_reads {x x' : V5 W32 × Detection} (h : Alike x x') {b b' : Bytes} (hb : Full b b') (last left : Nat) :
    Reads (fun r r' => Alike r.1 r'.1 ∧ Full r.2 r'.2) (padL x b last left) (padL x' b' last left) := by
  unfold padL
  rw [hb.1, hb.2]
  refine Reads.branch (fun _ _ => ?_) fun _ _ => ?_
  · refine Reads.bind (Reads.refl _) ?_; rintro n _ - - rfl
    refine Reads.bind (Reads.refl _) ?_; rintro p _ - - rfl
    refine Reads.bind (Reads.refl _) ?_; rintro p0 _ - - rfl
    refine Reads.bind (Reads.refl _) ?_; rintro p1 _ - - rfl
    exact Reads.bind (copy_full hb rfl).reads fun c c' _ _ hc => Reads.bind (compressL_reads h (one_full hc)) fun y y' _ _ hy =>
      Reads.bind (copy_full hc rfl).reads fun d d' _ _ hd => Reads.pure ⟨hy, hd⟩
  · refine Reads.bind (Reads.refl _) ?_; rintro n _ - - rfl
    refine Reads.bind (Reads.refl _) ?_; rintro p _ - - rfl
    exact Reads.bind (copy_full hb rfl).reads fun d d' _ _ hd => Reads.pure ⟨h, hd⟩

theorem finalizeL_reads {x x' : V5 W32 × Detection} (h : Alike x x') (total : W64) {b b' : Bytes} (hb : Len b b') :
    Reads Alike (finalizeL x total b) (finalizeL x' total b') := by
  have e : b.length = b'.length := hb
  unfold finalizeL
  rw [← e]
  refine Reads.bind (Reads.refl _) ?_; rintro t _ - - rfl
  refine Reads.bind (copy_full ⟨List.length_replicate, List.length_replicate⟩ hb).reads fun c c' _ _ hc => ?_
  refine Reads.bind (Reads.refl _) ?_; rintro n _ - - rfl
  refine Reads.bind (padL_reads h hc _ _) fun r r' _ _ hr => ?_
  refine Reads.bind (Reads.refl _) ?_; rintro u _ - - rfl
  exact Reads.bind (putLenL_rel hr.2 u).reads fun d d' _ _ hd => compressL_reads hr.1 (one_full hd)

theorem While.branch' {α β : Type} {G : α → Prop} {G' : β → Prop} {Q : α → β → Prop} {p : Prop} [Decidable p] {x y : Leak α} {x' y' : Leak β}
    (h1 : p → While G G' Q x x') (h2 : ¬ p → While G G' Q y y') : While G G' Q (Leak.branch p x y) (Leak.branch p x' y') := by
  by_cases hp : p
  · rw [branch_pos hp, branch_pos hp]; exact (h1 hp).shows rfl
  · rw [branch_neg hp, branch_neg hp]; exact (h2 hp).shows rfl

theorem padL_while {x x' : V5 W32 × Detection} (h : Plain x x') {b b' : Bytes} (hb : Full b b') (last left : Nat) :
    While (fun r => Clean r.1) (fun r => Clean r.1) (fun r r' => Plain r.1 r'.1 ∧ Full r.2 r'.2) (padL x b last left) (padL x' b' last left) := by
  unfold padL
  rw [hb.1, hb.2]
  refine While.branch' (fun _ => ?_) fun _ => ?_
  · refine While.rel_bind (Rel.refl _) ?_; rintro n _ - - rfl
    refine While.rel_bind (Rel.refl _) ?_; rintro p _ - - rfl
    refine While.rel_bind (Rel.refl _) ?_; rintro p0 _ - - rfl
    refine While.rel_bind (Rel.refl _) ?_; rintro p1 _ - - rfl
    refine While.rel_bind (copy_full hb rfl) fun c c' _ _ hc => While.bind (compressL_while h (one_full hc)) ?_ ?_ fun y y' _ _ hy =>
      While.rel_bind (copy_full hc rfl) fun d d' _ _ hd => While.pure fun _ _ => ⟨hy, hd⟩
    all_goals
      intro a r _ hr hg
      obtain ⟨z, -, hz, -⟩ := bind_some hr
      cases hz
      exact hg
  · refine While.rel_bind (Rel.refl _) ?_; rintro n _ - - rfl
    refine While.rel_bind (Rel.refl _) ?_; rintro p _ - - rfl
    exact While.rel_bind (copy_full hb rfl) fun d d' _ _ hd => While.pure fun _ _ => ⟨h, hd⟩

/-- One run: the buffer stays a block, and what was found stays found. -/
theorem padL_one {x : V5 W32 × Detection} {b : Bytes} (hb : b.length = 64) {last left : Nat} {r : (V5 W32 × Detection) × Bytes}
    (h : (padL x b last left).val = some r) : r.2.length = 64 ∧ (Clean r.1 → Clean x) := by
  unfold padL at h
  by_cases hp : 56 ≤ last
  · rw [branch_pos hp] at h
    obtain ⟨n, -, h, -⟩ := bind_some (show (_ >>= _ : Leak _).val = some r from h)
    obtain ⟨p, -, h, -⟩ := bind_some h
    obtain ⟨p0, -, h, -⟩ := bind_some h
    obtain ⟨p1, -, h, -⟩ := bind_some h
    obtain ⟨c, hc, h, -⟩ := bind_some h
    obtain ⟨y, hy, h, -⟩ := bind_some h
    obtain ⟨d, hd, h, -⟩ := bind_some h
    cases h
    have lc := (copy_length hc).trans hb
    exact ⟨(copy_length hd).trans lc, fun q => compressL_keep (one_full ⟨lc, lc⟩).2.1 hy q⟩
  · rw [branch_neg hp] at h
    obtain ⟨n, -, h, -⟩ := bind_some (show (_ >>= _ : Leak _).val = some r from h)
    obtain ⟨p, -, h, -⟩ := bind_some h
    obtain ⟨d, hd, h, -⟩ := bind_some h
    cases h
    exact ⟨(copy_length hd).trans hb, id⟩

theorem finalizeL_tail {r : (V5 W32 × Detection) × Bytes} (hr : r.2.length = 64) {total : W64} {y : V5 W32 × Detection}
    (h : (do let t ← shl total 3; let b ← putLenL r.2 t; compressL r.1 [b] : Leak (V5 W32 × Detection)).val = some y) (hc : Clean y) : Clean r.1 := by
  obtain ⟨t, -, h, -⟩ := bind_some h
  obtain ⟨b, hb, h, -⟩ := bind_some h
  have lb := putLenL_length hb hr
  exact compressL_keep (one_full ⟨lb, lb⟩).2.1 h hc

theorem finalizeL_while {x x' : V5 W32 × Detection} (h : Plain x x') (total : W64) {b b' : Bytes} (hb : Len b b') :
    While Clean Clean Plain (finalizeL x total b) (finalizeL x' total b') := by
  have e : b.length = b'.length := hb
  unfold finalizeL
  rw [← e]
  refine While.rel_bind (Rel.refl _) ?_; rintro t _ - - rfl
  refine While.rel_bind (copy_full ⟨List.length_replicate, List.length_replicate⟩ hb) fun c c' _ _ hc => ?_
  refine While.rel_bind (Rel.refl _) ?_; rintro n _ - - rfl
  refine While.bind (padL_while h hc _ _) (fun a y ha hy hg => finalizeL_tail (padL_one hc.1 ha).1 hy hg)
    (fun a y ha hy hg => finalizeL_tail (padL_one hc.2 ha).1 hy hg) fun r r' _ _ hr => ?_
  refine While.rel_bind (Rel.refl _) ?_; rintro u _ - - rfl
  exact While.rel_bind (putLenL_rel hr.2 u) fun d d' _ _ hd => compressL_while hr.1 (one_full hd)

theorem finalizeL_keep {x y : V5 W32 × Detection} {total : W64} {b : Bytes} (h : (finalizeL x total b).val = some y) (hc : Clean y) : Clean x := by
  unfold finalizeL at h
  obtain ⟨t, -, h, -⟩ := bind_some h
  obtain ⟨c, hb, h, -⟩ := bind_some h
  obtain ⟨n, -, h, -⟩ := bind_some h
  obtain ⟨r, hr, h, -⟩ := bind_some h
  obtain ⟨l, k⟩ := padL_one ((copy_length hb).trans List.length_replicate) hr
  exact k (finalizeL_tail l h hc)

/-! ### The result -/

/-- No attack reported. -/
def Fine (r : Result) : Prop := ∃ out, r = .ok out

theorem resultL_keep {h : V5 W32} {c : Detection} {r : Result} (hr : (resultL h (some c)).val = some r) (hf : Fine r) : c.foundCollision = false := by
  obtain ⟨out, rfl⟩ := hf
  rw [resultL_val, resultC] at hr
  cases ho : Rs.outBE 20 h.toList with
  | none => rw [ho] at hr; cases hr
  | some o =>
    rw [ho] at hr
    by_cases hc : c.foundCollision = true
    · by_cases hs : c.safeHash = true <;> simp [hc, hs] at hr
    · exact Bool.eq_false_iff.mpr hc

theorem resultL_none (h h' : V5 W32) : Rel Any (resultL h none) (resultL h' none) :=
  Rel.bind (outBEL_rel 20 (show Len h.toList h'.toList from rfl)) fun _ _ _ => Rel.bind (Rel.refl _) fun _ _ _ => Rel.pure trivial

theorem resultL_while (h h' : V5 W32) {c c' : Detection} : While Fine Fine Any (resultL h (some c)) (resultL h' (some c')) := by
  intro a b ha hb hF hF'
  have e := resultL_keep ha hF
  have e' := resultL_keep hb hF'
  refine ⟨Rel.obs (R := Any) ?_, trivial⟩
  refine Rel.bind (outBEL_rel 20 (show Len h.toList h'.toList from rfl)) fun _ _ _ => Rel.bind (Rel.refl _) fun _ _ _ => ?_
  rw [branch_neg (by rw [e]; simp), branch_neg (by rw [e']; simp)]
  exact Rel.shows rfl (Rel.pure trivial)

theorem resultL_reads (h h' : V5 W32) {c c' : Detection} :
    Reads (fun r r' => Fine r ↔ Fine r') (resultL h (some c)) (resultL h' (some c')) := by
  refine Reads.bind (outBEL_rel 20 (show Len h.toList h'.toList from rfl)).reads fun _ _ _ _ _ => Reads.bind (Reads.refl _) fun _ _ _ _ _ => ?_
  refine Reads.branch (fun _ _ => Reads.branch (fun _ _ => Reads.pure ?_) fun _ _ => Reads.pure ?_) fun _ _ => Reads.pure ?_
  · exact iff_of_false (by rintro ⟨_, ⟨⟩⟩) (by rintro ⟨_, ⟨⟩⟩)
  · exact iff_of_false (by rintro ⟨_, ⟨⟩⟩) (by rintro ⟨_, ⟨⟩⟩)
  · exact iff_of_true ⟨_, rfl⟩ ⟨_, rfl⟩

/-! ### The hasher -/

/-- Same counter, and the rest related by `P` if detection is on. -/
def StateRel (P : V5 W32 × Detection → V5 W32 × Detection → Prop) (s s' : State) : Prop :=
  s.blockLen = s'.blockLen ∧ Option.Rel (fun c c' => P (s.h, c) (s'.h, c')) s.detection s'.detection

theorem padded (h h' : V5 W32) {b b' : BlockBuffer} (hb : SameFill .eager 64 b b') (n : Nat) :
    Rel Any (digestPadL 64 b 0x80 (beBytes 8 n) (fun st b => pure (Sha1.compressSoft st [b])) h)
      (digestPadL 64 b' 0x80 (beBytes 8 n) (fun st b => pure (Sha1.compressSoft st [b])) h') :=
  digestPadL_rel (R := Any) (bs := 64) hb (len_be _ _ _) (fun _ _ _ _ _ _ _ => Rel.pure trivial) trivial

theorem off_fin {s s' : State} {b b' : BlockBuffer} (x : Builder) (hn : s.blockLen = s'.blockLen) (h : s.detection = none) (h' : s'.detection = none)
    (hb : SameFill .eager 64 b b') : Rel Any ((sha1CheckedL x).finalize s b) ((sha1CheckedL x).finalize s' b') := by
  simp only [sha1CheckedL, h, h', hn, hb.1]
  refine Rel.bind (Rel.refl _) fun _ _ _ => Rel.bind (Rel.refl _) ?_
  rintro n _ rfl
  exact Rel.bind (padded _ _ hb _) fun t t' _ => resultL_none t t'

theorem content_len {b b' : BlockBuffer} (hb : SameFill .eager 64 b b') : Len b.content b'.content := by
  rw [Len, hb.2.1.length_content, hb.2.2.length_content, hb.1]

theorem partly (x : Builder) : Partly (sha1CheckedL x) (StateRel Alike) (fun r r' => Fine r ↔ Fine r') where
  pos := Nat.succ_pos 63
  init := Rel.pure ⟨rfl, by cases x.build.detection with
    | none => exact .none
    | some c => exact .some ⟨⟨rfl, rfl, rfl⟩, rfl⟩⟩
  upd := fun s s' l l' h hl => by
    obtain ⟨hn, hd⟩ := h
    simp only [sha1CheckedL, hn, hl.1]
    refine Reads.bind (Reads.refl _) ?_
    rintro n _ - - rfl
    revert hd
    cases s.detection <;> cases s'.detection <;> intro hd
    · exact Reads.bind (Reads.refl _) fun _ _ _ _ _ => Reads.pure ⟨rfl, .none⟩
    · cases hd
    · cases hd
    · cases hd with
      | some hd =>
        exact Reads.bind (Reads.refl _) fun _ _ _ _ _ => Reads.bind (compressL_reads hd hl) fun y y' _ _ hy => Reads.pure ⟨rfl, .some hy⟩
  fin := fun s s' b b' h hb => by
    obtain ⟨hn, hd⟩ := h
    cases h : s.detection <;> cases h' : s'.detection <;> rw [h, h'] at hd
    · have hr := (off_fin x hn h h' hb).reads
      intro r r' t t' hr1 hr2 he
      refine ⟨(hr r r' t t' hr1 hr2 he).1, ?_⟩
      have key : ∀ (s : State) (b : BlockBuffer) r, s.detection = none → ((sha1CheckedL x).finalize s b).val = some r → Fine r := by
        intro s b r hs hr
        simp only [sha1CheckedL, hs] at hr
        obtain ⟨_, -, hr, -⟩ := bind_some hr
        obtain ⟨_, -, hr, -⟩ := bind_some hr
        obtain ⟨_, -, hr, -⟩ := bind_some hr
        obtain ⟨_, -, hr, -⟩ := bind_some hr
        obtain ⟨_, -, hr, -⟩ := bind_some hr
        cases hr; exact ⟨_, rfl⟩
      exact iff_of_true (key s b r h hr1) (key s' b' r' h' hr2)
    · cases hd
    · cases hd
    · cases hd with
      | some hd =>
        simp only [sha1CheckedL, h, h', hn]
        refine Reads.bind (Reads.refl _) fun _ _ _ _ _ => Reads.bind (Reads.refl _) ?_
        rintro n _ - - rfl
        exact Reads.bind (finalizeL_reads hd _ (content_len hb)) fun y y' _ _ _ => resultL_reads _ _

theorem calm (x : Builder) (hu : x.ubcCheck = false) :
    Calm (sha1CheckedL x) (StateRel Plain) (fun s => ∀ c, s.detection = some c → c.foundCollision = false) Fine where
  pos := Nat.succ_pos 63
  init := Rel.pure ⟨rfl, by
    cases h : x.build.detection with
    | none => exact .none
    | some c =>
      refine .some ⟨⟨rfl, rfl, rfl⟩, ?_⟩
      have h : x.detection = some c := h
      unfold Builder.detection at h
      split at h
      · cases h; exact hu
      · cases h⟩
  upd := fun s s' l l' h hl => by
    obtain ⟨hn, hd⟩ := h
    simp only [sha1CheckedL, hn, hl.1]
    refine While.rel_bind (Rel.refl _) ?_
    rintro n _ - - rfl
    revert hd
    cases s.detection <;> cases s'.detection <;> intro hd
    · exact While.rel_bind (Rel.refl _) fun _ _ _ _ _ => While.pure fun _ _ => ⟨rfl, .none⟩
    · cases hd
    · cases hd
    · cases hd with
      | some hd =>
        refine While.rel_bind (Rel.refl _) fun _ _ _ _ _ => While.bind (compressL_while hd hl) ?_ ?_ fun y y' _ _ hy =>
          While.pure fun _ _ => ⟨rfl, .some hy⟩
        all_goals
          intro a r _ hr hg
          cases hr
          exact hg _ rfl
  keep := fun s l t hl ht hg c hc => by
    simp only [sha1CheckedL, hc] at ht
    obtain ⟨_, -, ht, -⟩ := bind_some ht
    obtain ⟨_, -, ht, -⟩ := bind_some ht
    obtain ⟨y, hy, ht, -⟩ := bind_some ht
    cases ht
    exact compressL_keep hl hy (hg _ rfl)
  fin := fun s s' b b' h hb => by
    obtain ⟨hn, hd⟩ := h
    cases h : s.detection <;> cases h' : s'.detection <;> rw [h, h'] at hd
    · exact While.of_rel (off_fin x hn h h' hb)
    · cases hd
    · cases hd
    · cases hd with
      | some hd =>
        simp only [sha1CheckedL, h, h', hn]
        refine While.rel_bind (Rel.refl _) fun _ _ _ _ _ => While.rel_bind (Rel.refl _) ?_
        rintro n _ - - rfl
        exact While.bind (finalizeL_while hd _ (content_len hb)) (fun y r _ hr hF => resultL_keep hr hF) (fun y r _ hr hF => resultL_keep hr hF)
          fun y y' _ _ _ => resultL_while _ _
  last := fun s b r _ hr hF c hc => by
    simp only [sha1CheckedL, hc] at hr
    obtain ⟨_, -, hr, -⟩ := bind_some hr
    obtain ⟨_, -, hr, -⟩ := bind_some hr
    obtain ⟨y, hy, hr, -⟩ := bind_some hr
    exact finalizeL_keep hy (resultL_keep hr hF)

theorem quiet (x : Builder) (hd : x.detectCollision = false) :
    Quiet (sha1CheckedL x) fun s s' => s.blockLen = s'.blockLen ∧ s.detection = none ∧ s'.detection = none where
  pos := Nat.succ_pos 63
  init := by
    have h : x.build.detection = none := by simp [Builder.build, Builder.detection, hd]
    exact Rel.pure ⟨rfl, h, h⟩
  upd := fun s s' l l' h hl => by
    simp only [sha1CheckedL, h.1, h.2.1, h.2.2, hl.1]
    refine Rel.bind (Rel.refl _) ?_
    rintro n _ rfl
    exact Rel.bind (Rel.refl _) fun _ _ _ => Rel.pure ⟨rfl, rfl, rfl⟩
  fin := fun s s' b b' h hb => off_fin x h.1 h.2.1 h.2.2 hb

/-! ### Block by block -/

/-- Blocks `l` and `l'` lead from `H` and `H'` to `K` and `K'` and are judged alike. -/
def JudgedFrom (safe ubc red : Bool) (H : V5 W32) (l : List Bytes) (H' : V5 W32) (l' : List Bytes) (K K' : V5 W32) : Prop :=
  l.length = l'.length ∧ K = checkedChain safe ubc red H l l.length ∧ K' = checkedChain safe ubc red H' l' l'.length ∧
  ∀ i (h : i < l.length) (h' : i < l'.length), JudgedAlike ubc red (checkedChain safe ubc red H l i) l[i] (checkedChain safe ubc red H' l' i) l'[i]

theorem chain_append {safe ubc red : Bool} (H : V5 W32) (l m : List Bytes) (i : Nat) :
    checkedChain safe ubc red H (l ++ m) (l.length + i) = checkedChain safe ubc red (checkedChain safe ubc red H l l.length) m i := by
  unfold checkedChain
  rw [List.take_length_add_append, List.foldl_append, List.take_length]
  exact chain_fst safe ubc red (m.take i) _ _ rfl

theorem chain_left {safe ubc red : Bool} (H : V5 W32) (l m : List Bytes) {i : Nat} (h : i ≤ l.length) :
    checkedChain safe ubc red H (l ++ m) i = checkedChain safe ubc red H l i := by
  unfold checkedChain; rw [List.take_append_of_le_length h]

theorem JudgedFrom.app {safe ubc red : Bool} {H H' K K' N N' : V5 W32} {l l' m m' : List Bytes} (h : JudgedFrom safe ubc red H l H' l' K K')
    (g : JudgedFrom safe ubc red K m K' m' N N') : JudgedFrom safe ubc red H (l ++ m) H' (l' ++ m') N N' := by
  obtain ⟨h0, rfl, rfl, h⟩ := h
  obtain ⟨g0, rfl, rfl, g⟩ := g
  refine ⟨by rw [List.length_append, List.length_append, h0, g0], ?_, ?_, fun i hi hi' => ?_⟩
  · rw [List.length_append, chain_append]
  · rw [List.length_append, chain_append]
  · by_cases hl : i < l.length
    · have hl' : i < l'.length := h0 ▸ hl
      rw [chain_left _ _ _ (Nat.le_of_lt hl), chain_left _ _ _ (Nat.le_of_lt hl'), List.getElem_append_left hl, List.getElem_append_left hl']
      exact h i hl hl'
    · obtain ⟨j, rfl⟩ : ∃ j, i = l.length + j := ⟨i - l.length, by omega⟩
      have hj : j < m.length := by rw [List.length_append] at hi; omega
      have hj' : j < m'.length := g0 ▸ hj
      have e : (l ++ m)[l.length + j] = m[j] := by rw [List.getElem_append_right (by omega)]; congr 1; omega
      have e' : (l' ++ m')[l.length + j] = m'[j] := by rw [List.getElem_append_right (by omega)]; congr 1; omega
      rw [e, e', chain_append, show l.length + j = l'.length + j by rw [h0], chain_append]
      exact g j hj hj'

theorem compress_chain (x : V5 W32 × Detection) (l : List Bytes) :
    (compress x l).1 = checkedChain x.2.safeHash x.2.ubcCheck x.2.reducedRoundCollision x.1 l l.length := by
  rw [checkedChain, List.take_length]
  exact (congrArg (·.1) (compress_spec l x.1 x.2).2).trans (chain_fst _ _ _ l (x.1, x.2.foundCollision) (x.1, false) rfl)

/-- Both with detection and configuration `f`. -/
def Both (f : Bool × Bool × Bool) (s s' : State) : Prop :=
  s.blockLen = s'.blockLen ∧ ∃ c c', s.detection = some c ∧ s'.detection = some c' ∧ c.cfg = f ∧ c'.cfg = f

theorem story (x : Builder) (hd : x.detectCollision = true) :
    Story (sha1CheckedL x) (Both (x.safeHash, x.ubcCheck, x.reducedRoundCollision)) fun s l s' l' t t' =>
      JudgedFrom x.safeHash x.ubcCheck x.reducedRoundCollision s.h l s'.h l' t.h t'.h where
  pos := Nat.succ_pos 63
  init := Rel.pure ⟨rfl, rfl, by
    have h : x.build.detection = some ⟨x.safeHash, x.ubcCheck, x.reducedRoundCollision, false, zero5, zero5, zero80, zero80, zero5, zero5⟩ := by
      simp only [Builder.build, Builder.detection, hd, if_true]
    exact ⟨_, _, h, h, rfl, rfl⟩⟩
  nil := fun s s' => ⟨rfl, rfl, rfl, fun i h => absurd h (Nat.not_lt_zero _)⟩
  app := fun _ _ _ _ _ _ _ _ _ _ h g => h.app g
  upd := fun s s' l l' h hl => by
    obtain ⟨hn, c, c', hc, hc', f, f'⟩ := h
    simp only [sha1CheckedL, hn, hl.1, hc, hc']
    refine Reads.bind (Reads.refl _) ?_
    rintro n _ - - rfl
    refine Reads.bind (Reads.refl _) fun _ _ _ _ _ => Reads.bind (compressL_judged l l' (s.h, c) (s'.h, c') (f.trans f'.symm) hl) fun y y' hy hy' hJ => Reads.pure ?_
    rw [compressL_some hl.2.1 hy, compressL_some hl.2.2 hy']
    refine ⟨⟨rfl, _, _, rfl, rfl, (compress_cfg _ _).trans f, (compress_cfg _ _).trans f'⟩, hl.1, ?_, ?_, ?_⟩
    · have e := compress_chain (s.h, c) l
      rw [show c.safeHash = x.safeHash from congrArg (·.1) f, show c.ubcCheck = x.ubcCheck from congrArg (·.2.1) f,
        show c.reducedRoundCollision = x.reducedRoundCollision from congrArg (·.2.2) f] at e
      exact e
    · have e := compress_chain (s'.h, c') l'
      rw [show c'.safeHash = x.safeHash from congrArg (·.1) f', show c'.ubcCheck = x.ubcCheck from congrArg (·.2.1) f',
        show c'.reducedRoundCollision = x.reducedRoundCollision from congrArg (·.2.2) f'] at e
      exact e
    · dsimp only at hJ
      rw [show c.safeHash = x.safeHash from congrArg (·.1) f, show c.ubcCheck = x.ubcCheck from congrArg (·.2.1) f,
        show c.reducedRoundCollision = x.reducedRoundCollision from congrArg (·.2.2) f] at hJ
      exact hJ

/-- There is one way to cut a message. -/
theorem cut_unique {L M : List Bytes} {t u : Bytes} (hL : BlocksOf 64 L) (hM : BlocksOf 64 M) (ht : t.length < 64) (hu : u.length < 64)
    (h : L.flatten ++ t = M.flatten ++ u) : L = M := by
  induction L generalizing M with
  | nil =>
    cases M with
    | nil => rfl
    | cons b M =>
      have := congrArg List.length h
      have hb := hM b List.mem_cons_self
      simp only [List.flatten_nil, List.nil_append, List.flatten_cons, List.length_append, hb] at this
      omega
  | cons a L ih =>
    have ha := hL a List.mem_cons_self
    cases M with
    | nil =>
      have := congrArg List.length h
      simp only [List.flatten_nil, List.nil_append, List.flatten_cons, List.length_append, ha] at this
      omega
    | cons b M =>
      have hb := hM b List.mem_cons_self
      rw [List.flatten_cons, List.flatten_cons, List.append_assoc, List.append_assoc] at h
      obtain ⟨rfl, h'⟩ := List.append_inj h (ha.trans hb.symm)
      rw [ih (fun c hc => hL c (List.mem_cons_of_mem _ hc)) (fun c hc => hM c (List.mem_cons_of_mem _ hc)) h']

end Hashes.Sha1Checked
