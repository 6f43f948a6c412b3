import Verif.Leak.Run
import Verif.Proof.Checked.Digest
import Verif.Props.Leak
/- Whole hashers with observations: forgetting them, runs that show the same, and runs whose observations determine the message. -/
namespace Hashes.Leak
variable {α β γ δ σ τ ω : Type}

/-- Observations in front of a run. -/
def shows (o : List Obs) (x : Leak α) : Leak α := ⟨x.val, o ++ x.obs⟩

theorem shows_bind (o : List Obs) (x : Leak α) (f : α → Leak β) : shows o x >>= f = shows o (x >>= f) := by
  refine ext' ?_ ?_
  · simp only [val_bind, shows]
  · simp only [obs_bind, shows, List.append_assoc]
theorem shows_shows (o o' : List Obs) (x : Leak α) : shows o (shows o' x) = shows (o ++ o') x := by
  simp only [shows, List.append_assoc]
theorem emit_some (o : Obs) (a : α) (f : α → Leak β) : emit o (some a) >>= f = shows [o] (f a) := by
  refine ext' ?_ ?_
  · simp only [val_bind, val_emit, shows]; rfl
  · rw [obs_bind]; rfl
theorem branch_pos {p : Prop} [Decidable p] (h : p) (a b : Leak α) : branch p a b = shows [.branch true] a := by
  rw [branch, if_pos h, decide_eq_true h]; exact emit_some _ _ _
theorem branch_neg {p : Prop} [Decidable p] (h : ¬ p) (a b : Leak α) : branch p a b = shows [.branch false] b := by
  rw [branch, if_neg h, decide_eq_false h]; exact emit_some _ _ _
theorem Rel.shows {R : α → β → Prop} {x : Leak α} {y : Leak β} {o o' : List Obs} (ho : o = o') (h : Rel R x y) :
    Rel R (Leak.shows o x) (Leak.shows o' y) := by
  subst ho; exact ⟨congrArg (o ++ ·) h.1, h.2⟩
theorem Reads.shows {Q : α → β → Prop} {x : Leak α} {y : Leak β} {o o' : List Obs} (ho : o = o') (h : Reads Q x y) :
    Reads Q (Leak.shows o x) (Leak.shows o' y) := by
  subst ho
  intro a b r r' ha hb he
  simp only [Leak.shows, List.append_assoc] at he
  obtain ⟨h1, h2⟩ := h a b r r' ha hb (List.append_cancel_left he)
  exact ⟨by simp only [Leak.shows, List.length_append, h1], h2⟩

/-- The same run twice. -/
theorem Reads.refl (x : Leak α) : Reads Eq x x := by
  intro a b r r' ha hb _
  rw [ha] at hb; cases hb; exact ⟨rfl, rfl⟩

/-- What a run tells whatever comes after it. -/
theorem Reads.of_tells {x y : Leak α} {p : Prop} (hp : p → x = y)
    (h : ∀ k k' : α → Leak α, Tells (fun _ _ => p) (x >>= k) (y >>= k')) : Reads (fun a b => p ∧ a = b) x y := by
  intro a b r r' ha hb he
  have key : p := by
    refine h (fun a => ⟨some a, r⟩) (fun a => ⟨some a, r'⟩) a b ?_ ?_ ?_
    · rw [val_bind, ha]; rfl
    · rw [val_bind, hb]; rfl
    · rw [obs_bind, obs_bind, ha, hb]; exact he
  cases hp key
  rw [ha] at hb; cases hb; exact ⟨rfl, key, rfl⟩

theorem Rel.seen {x y : Option α} (h : x = y) : Rel Eq (Leak.seen x) (Leak.seen y) := by subst h; exact Rel.refl _
@[simp] theorem val_seen (x : Option α) : (seen x).val = x := rfl

/-! ### `digest_blocks` -/

theorem copy_ok {a v : Bytes} {i j : Nat} (hj : j ≤ a.length) (hv : i + v.length = j) : copy a i j v = emit (.range i j) (some (overwrite a i v)) := by
  rw [copy, Rs.copy, if_pos ⟨by omega, hj, by omega⟩, overwrite, hv]
theorem slice_ok {a : List α} {i j : Nat} (hi : i ≤ j) (hj : j ≤ a.length) : slice a i j = emit (.range i j) (some ((a.drop i).take (j - i))) := by
  rw [slice, Rs.slice, if_pos ⟨hi, hj⟩]

section
variable {k : BufKind} {bs : Nat} {b b' : BlockBuffer} {input input' : Bytes} {f f' : σ → List Bytes → Leak σ} {s s' : σ}

theorem digestBlocksL_fits (wf : b.WF k bs) (h : BlockBuffer.fits k input.length (bs - b.pos) = true) (f : σ → List Bytes → Leak σ) (s : σ) :
    digestBlocksL k bs b input f s = shows [.branch true, .range b.pos (b.pos + input.length)]
      (pure (⟨overwrite b.data b.pos input, b.pos + input.length⟩, s)) := by
  have hp := wf.pos_le
  have hle : b.pos + input.length ≤ b.data.length := by
    rw [wf.1]; cases k <;> simp only [BlockBuffer.fits, decide_eq_true_eq] at h <;> omega
  rw [digestBlocksL, branch_pos h, copy_ok hle rfl, emit_some, shows_shows]; rfl

theorem digestBlocksL_over (h : ¬ BlockBuffer.fits k input.length (bs - b.pos) = true) (f : σ → List Bytes → Leak σ) (s : σ) :
    digestBlocksL k bs b input f s = shows [.branch false] (do
      let r ← fillL bs b input f s
      restL k bs r.1 r.2.1 f r.2.2) := by
  rw [digestBlocksL, branch_neg h]

theorem over_le (wf : b.WF k bs) (h : ¬ BlockBuffer.fits k input.length (bs - b.pos) = true) : bs - b.pos ≤ input.length := by
  cases k <;> simp only [BlockBuffer.fits, decide_eq_true_eq] at h <;> omega

theorem fillL_zero (h : b.pos = 0) (f : σ → List Bytes → Leak σ) (s : σ) :
    fillL bs b input f s = shows [.branch false] (pure (b.data, input, s)) := branch_neg (fun hn => hn h) _ _

theorem fillL_pos (wf : b.WF k bs) (h : b.pos ≠ 0) (hge : bs - b.pos ≤ input.length) (f : σ → List Bytes → Leak σ) (s : σ) :
    fillL bs b input f s = shows [.branch true, .range 0 (bs - b.pos), .range (bs - b.pos) input.length, .range b.pos bs] (do
      let s ← f s [b.content ++ input.take (bs - b.pos)]
      pure (b.content ++ input.take (bs - b.pos), input.drop (bs - b.pos), s)) := by
  have hp := wf.pos_le
  have hl : (input.take (bs - b.pos)).length = bs - b.pos := by rw [List.length_take]; omega
  have e : overwrite b.data b.pos (input.take (bs - b.pos)) = b.content ++ input.take (bs - b.pos) := overwrite_full (by rw [wf.1, hl]; omega)
  rw [fillL, branch_pos h, slice_ok (Nat.zero_le _) hge, emit_some, slice_ok hge (Nat.le_refl _), emit_some, List.drop_zero, Nat.sub_zero,
    copy_ok (Nat.le_of_eq wf.1.symm) (by rw [hl]; omega), emit_some, shows_shows, shows_shows, shows_shows, e,
    List.take_of_length_le (l := input.drop _) (by rw [List.length_drop]; exact Nat.le_refl _)]
  rfl

/-- Blocks handed on and leftover. -/
theorem split_le (hbs : 0 < bs) (n : Nat) : BlockBuffer.splitCount k bs n * bs ≤ n := by rw [splitCount_eq hbs]; exact nFull_mul_le

theorem tail_wf (hbs : 0 < bs) {data : Bytes} (hd : data.length = bs) (input : Bytes) :
    (BlockBuffer.mk (overwrite data 0 (input.drop (BlockBuffer.splitCount k bs input.length * bs)))
      (input.length - BlockBuffer.splitCount k bs input.length * bs)).WF k bs ∧
    (BlockBuffer.mk (overwrite data 0 (input.drop (BlockBuffer.splitCount k bs input.length * bs)))
      (input.length - BlockBuffer.splitCount k bs input.length * bs)).content = input.drop (BlockBuffer.splitCount k bs input.length * bs) := by
  generalize hc : BlockBuffer.splitCount k bs input.length = cnt
  have hcnt : cnt = nFull k bs input.length := hc.symm.trans (splitCount_eq hbs)
  have hll : (input.drop (cnt * bs)).length = input.length - cnt * bs := List.length_drop
  have hle : input.length - cnt * bs ≤ bs := by
    rw [hcnt]
    cases k
    · exact Nat.le_of_lt (tail_lt hbs)
    · exact tail_le hbs
  refine ⟨⟨by simp only; rw [length_overwrite (by omega), hd], ?_⟩, ?_⟩
  · cases k
    · simp only; rw [hcnt]; exact tail_lt hbs
    · exact hle
  · simp only [BlockBuffer.content]
    have := take_overwrite (d := data) (src := input.drop (cnt * bs)) (off := 0) (by omega)
    rw [← hll]
    simpa using this

theorem restL_eq (hbs : 0 < bs) {data : Bytes} (hd : data.length = bs) (input : Bytes) (f : σ → List Bytes → Leak σ) (s : σ) :
    restL k bs data input f s =
      shows [.range 0 (BlockBuffer.splitCount k bs input.length * bs), .range (BlockBuffer.splitCount k bs input.length * bs) input.length,
        .branch (decide (BlockBuffer.splitCount k bs input.length = 0))]
        ((if BlockBuffer.splitCount k bs input.length = 0 then pure s else f s (blocks bs (BlockBuffer.splitCount k bs input.length) input)) >>= fun s =>
          shows [.range 0 (input.length - BlockBuffer.splitCount k bs input.length * bs)]
            (pure (⟨overwrite data 0 (input.drop (BlockBuffer.splitCount k bs input.length * bs)),
              input.length - BlockBuffer.splitCount k bs input.length * bs⟩, s))) := by
  have hw := (tail_wf (k := k) hbs hd input).1.pos_le
  have hc := split_le (k := k) hbs input.length
  unfold restL
  generalize BlockBuffer.splitCount k bs input.length = cnt at *
  simp only at hw ⊢
  have hl : (input.drop (cnt * bs)).length = input.length - cnt * bs := List.length_drop
  have hb : blocks bs cnt (input.take (cnt * bs)) = blocks bs cnt input := by
    have := blocks_append_left bs cnt (input.take (cnt * bs)) (input.drop (cnt * bs)) (by rw [List.length_take]; omega)
    rw [List.take_append_drop] at this
    exact this.symm
  rw [slice_ok (Nat.zero_le _) hc, emit_some, slice_ok hc (Nat.le_refl _), emit_some, List.drop_zero, Nat.sub_zero,
    List.take_of_length_le (l := input.drop _) (by rw [List.length_drop]; exact Nat.le_refl _), hb, hl]
  have hcopy : ∀ s : σ, (do let data ← copy data 0 (input.length - cnt * bs) (input.drop (cnt * bs)); pure ((⟨data, input.length - cnt * bs⟩ : BlockBuffer), s)) =
      shows [.range 0 (input.length - cnt * bs)] (pure (⟨overwrite data 0 (input.drop (cnt * bs)), input.length - cnt * bs⟩, s)) := by
    intro s
    rw [copy_ok (by rw [hd]; exact hw) (by rw [hl]; omega), emit_some]
  simp only [hcopy]
  by_cases h : cnt = 0
  · rw [branch_pos h, if_pos h, shows_bind, shows_shows, shows_shows, decide_eq_true h]; rfl
  · rw [branch_neg h, if_neg h, shows_bind, shows_shows, shows_shows, decide_eq_false h]; rfl

theorem blocks_shape (hbs : 0 < bs) {input input' : Bytes} (h : Len input input') :
    SameShape bs (blocks bs (BlockBuffer.splitCount k bs input.length) input) (blocks bs (BlockBuffer.splitCount k bs input.length) input') :=
  ⟨by rw [length_blocks, length_blocks], fun _ hb => length_of_mem_blocks (split_le hbs _) hb,
    fun _ hb => length_of_mem_blocks (by rw [show input.length = input'.length from h]; exact split_le hbs _) hb⟩

theorem one_shape {x y : Bytes} (hx : x.length = bs) (hy : y.length = bs) : SameShape bs [x] [y] :=
  ⟨rfl, fun c hc => by cases List.mem_singleton.mp hc; exact hx, fun c hc => by cases List.mem_singleton.mp hc; exact hy⟩

theorem fill_length (wf : b.WF k bs) (hge : bs - b.pos ≤ input.length) : (b.content ++ input.take (bs - b.pos)).length = bs := by
  have := wf.pos_le
  rw [List.length_append, wf.length_content, List.length_take]; omega

theorem fits_wf (wf : b.WF k bs) (h : BlockBuffer.fits k input.length (bs - b.pos) = true) :
    (BlockBuffer.mk (overwrite b.data b.pos input) (b.pos + input.length)).WF k bs ∧
    (BlockBuffer.mk (overwrite b.data b.pos input) (b.pos + input.length)).content = b.content ++ input := by
  have hp := wf.pos_le
  have hle : b.pos + input.length ≤ b.data.length := by
    rw [wf.1]; cases k <;> simp only [BlockBuffer.fits, decide_eq_true_eq] at h <;> omega
  refine ⟨⟨by simp only; rw [length_overwrite hle, wf.1], ?_⟩, ?_⟩
  · cases k <;> simp only [BlockBuffer.fits, decide_eq_true_eq] at h ⊢ <;> omega
  · simp only [BlockBuffer.content]; exact take_overwrite hle

/-- Buffers filled to the same position and inputs of the same length show the same, if the blocks do. -/
theorem digestBlocksL_rel {R : σ → σ → Prop} (hbs : 0 < bs) (hb : SameFill k bs b b') (hi : Len input input') (hs : R s s')
    (hf : ∀ s s' l l', R s s' → SameShape bs l l' → Rel R (f s l) (f' s' l')) :
    Rel (fun x y => SameFill k bs x.1 y.1 ∧ R x.2 y.2) (digestBlocksL k bs b input f s) (digestBlocksL k bs b' input' f' s') := by
  obtain ⟨hp, wf, wf'⟩ := hb
  have rest : ∀ (d d' i i' : Bytes) (s s' : σ), d.length = bs → d'.length = bs → Len i i' → R s s' →
      Rel (fun x y => SameFill k bs x.1 y.1 ∧ R x.2 y.2) (restL k bs d i f s) (restL k bs d' i' f' s') := by
    intro d d' i i' s s' hd hd' h hs
    have h0 : i.length = i'.length := h
    rw [restL_eq hbs hd, restL_eq hbs hd']
    refine Rel.shows (by rw [h0]) (Rel.bind (R := R) ?_ fun s s' hs => Rel.shows (by rw [h0]) (Rel.pure ⟨⟨by simp only [h0], (tail_wf hbs hd i).1, (tail_wf hbs hd' i').1⟩, hs⟩))
    rw [← h0]
    split
    · exact Rel.pure hs
    · exact hf _ _ _ _ hs (blocks_shape hbs h)
  have hi' : input.length = input'.length := hi
  by_cases h : BlockBuffer.fits k input.length (bs - b.pos) = true
  · have h' : BlockBuffer.fits k input'.length (bs - b'.pos) = true := by rw [← hi', ← hp]; exact h
    rw [digestBlocksL_fits wf h, digestBlocksL_fits wf' h']
    exact Rel.shows (by rw [hi', hp]) (Rel.pure ⟨⟨by simp only [hi', hp], (fits_wf wf h).1, (fits_wf wf' h').1⟩, hs⟩)
  · have h' : ¬ BlockBuffer.fits k input'.length (bs - b'.pos) = true := by rw [← hi', ← hp]; exact h
    rw [digestBlocksL_over h, digestBlocksL_over h']
    refine Rel.shows rfl ?_
    by_cases h0 : b.pos = 0
    · rw [fillL_zero h0, fillL_zero (hp ▸ h0), shows_bind, shows_bind]
      exact Rel.shows rfl (by simpa only [pure_bind] using rest _ _ _ _ _ _ wf.1 wf'.1 hi hs)
    · have hge := over_le wf h
      have hge' := over_le wf' h'
      rw [fillL_pos wf h0 hge, fillL_pos wf' (hp ▸ h0) hge', shows_bind, shows_bind, bind_assoc, bind_assoc]
      refine Rel.shows (by rw [hp, hi']) (Rel.bind (hf _ _ _ _ hs (one_shape (fill_length wf hge) (fill_length wf' hge'))) fun s s' hs => ?_)
      simp only [pure_bind]
      exact rest _ _ _ _ _ _ (fill_length wf hge) (fill_length wf' hge') (by rw [Len, List.length_drop, List.length_drop, hi', hp]) hs

/-- If blocks are read off the observations, so is all that has been compressed. -/
theorem digestBlocksL_reads {I : σ → Prop} (hbs : 0 < bs) (hb : SameFill k bs b b') (hi : Len input input') (hs : I s)
    (hf : ∀ s l l', I s → SameShape bs l l' → Reads (fun x y => l = l' ∧ x = y ∧ I x) (f s l) (f s l')) :
    Reads (fun x y => SameFill k bs x.1 y.1 ∧ x.2 = y.2 ∧ I x.2 ∧ ∃ C, b.content ++ input = C ++ x.1.content ∧ b'.content ++ input' = C ++ y.1.content)
      (digestBlocksL k bs b input f s) (digestBlocksL k bs b' input' f s) := by
  obtain ⟨hp, wf, wf'⟩ := hb
  have rest : ∀ (d d' i i' : Bytes) (s : σ), d.length = bs → d'.length = bs → Len i i' → I s →
      Reads (fun x y => SameFill k bs x.1 y.1 ∧ x.2 = y.2 ∧ I x.2 ∧ ∃ C, i = C ++ x.1.content ∧ i' = C ++ y.1.content) (restL k bs d i f s) (restL k bs d' i' f s) := by
    intro d d' i i' s hd hd' h hs
    have h0 : i.length = i'.length := h
    rw [restL_eq hbs hd, restL_eq hbs hd']
    refine Reads.shows (by rw [h0]) (Reads.bind (Q := fun x y => x = y ∧ I x ∧ i.take (BlockBuffer.splitCount k bs i.length * bs) = i'.take (BlockBuffer.splitCount k bs i.length * bs)) ?_ ?_)
    · rw [← h0]
      split
      · next hz => exact Reads.pure ⟨rfl, hs, by rw [hz]; simp⟩
      · refine (hf _ _ _ hs (blocks_shape hbs h)).mono fun x y _ _ hq => ⟨hq.2.1, hq.2.2, ?_⟩
        have := congrArg List.flatten hq.1
        rwa [flatten_blocks, flatten_blocks] at this
    · rintro s s' - - ⟨rfl, hs, e⟩
      refine Reads.shows (by rw [h0]) (Reads.pure ⟨⟨by simp only [h0], (tail_wf hbs hd i).1, (tail_wf hbs hd' i').1⟩, rfl, hs, i.take (BlockBuffer.splitCount k bs i.length * bs), ?_, ?_⟩)
      · simp only; rw [(tail_wf hbs hd i).2, List.take_append_drop]
      · simp only; rw [e, (tail_wf hbs hd' i').2, h0, List.take_append_drop]
  have hi' : input.length = input'.length := hi
  by_cases h : BlockBuffer.fits k input.length (bs - b.pos) = true
  · have h' : BlockBuffer.fits k input'.length (bs - b'.pos) = true := by rw [← hi', ← hp]; exact h
    rw [digestBlocksL_fits wf h, digestBlocksL_fits wf' h']
    exact Reads.shows (by rw [hi', hp]) (Reads.pure ⟨⟨by simp only [hi', hp], (fits_wf wf h).1, (fits_wf wf' h').1⟩, rfl, hs, [],
      (fits_wf wf h).2.symm, (fits_wf wf' h').2.symm⟩)
  · have h' : ¬ BlockBuffer.fits k input'.length (bs - b'.pos) = true := by rw [← hi', ← hp]; exact h
    rw [digestBlocksL_over h, digestBlocksL_over h']
    refine Reads.shows rfl ?_
    by_cases h0 : b.pos = 0
    · have hc : b.content = [] := by rw [BlockBuffer.content, h0]; rfl
      have hc' : b'.content = [] := by rw [BlockBuffer.content, ← hp, h0]; rfl
      rw [fillL_zero h0, fillL_zero (hp ▸ h0), shows_bind, shows_bind, hc, hc']
      exact Reads.shows rfl (by simpa only [pure_bind, List.nil_append] using rest _ _ _ _ _ wf.1 wf'.1 hi hs)
    · have hge := over_le wf h
      have hge' := over_le wf' h'
      rw [fillL_pos wf h0 hge, fillL_pos wf' (hp ▸ h0) hge', shows_bind, shows_bind, bind_assoc, bind_assoc]
      refine Reads.shows (by rw [hp, hi']) (Reads.bind (hf _ _ _ hs (one_shape (fill_length wf hge) (fill_length wf' hge'))) ?_)
      rintro s s' - - ⟨e, rfl, hs⟩
      simp only [pure_bind]
      refine (rest _ _ _ _ _ (fill_length wf hge) (fill_length wf' hge') (by rw [Len, List.length_drop, List.length_drop, hi', hp]) hs).mono ?_
      rintro x y - - ⟨q1, q2, q3, C, c1, c2⟩
      refine ⟨q1, q2, q3, (b.content ++ input.take (bs - b.pos)) ++ C, ?_, ?_⟩
      · rw [List.append_assoc, ← c1, List.append_assoc, List.take_append_drop]
      · rw [List.singleton_inj.mp e, List.append_assoc, ← c2, List.append_assoc, List.take_append_drop]

/-- Forgetting the observations. -/
theorem digestBlocksL_valI {I : σ → Prop} (hbs : 0 < bs) (wf : b.WF k bs) (input : Bytes) {g : σ → List Bytes → Option σ}
    (hf : ∀ s l, I s → BlocksOf bs l → (f s l).val = g s l) (hk : ∀ s l t, I s → g s l = some t → I t) (s : σ) (hs : I s) :
    (digestBlocksL k bs b input f s).val =
      (b.digestBlocks k bs input (fun (s : Option σ) l => s.bind fun s => g s l) (some s)).2.map fun t =>
        ((b.digestBlocks k bs input (fun (s : Option σ) l => s.bind fun s => g s l) (some s)).1, t) := by
  have rest : ∀ (d i : Bytes) (s : σ), I s → d.length = bs → (restL k bs d i f s).val =
      (if (blocks bs (BlockBuffer.splitCount k bs i.length) i).isEmpty then some s else g s (blocks bs (BlockBuffer.splitCount k bs i.length) i)).map fun t =>
        (⟨overwrite d 0 (i.drop (BlockBuffer.splitCount k bs i.length * bs)), (i.drop (BlockBuffer.splitCount k bs i.length * bs)).length⟩, t) := by
    intro d i s hs hd
    rw [restL_eq hbs hd]
    have hl : (blocks bs (BlockBuffer.splitCount k bs i.length) i).isEmpty = decide (BlockBuffer.splitCount k bs i.length = 0) := by
      cases hz : BlockBuffer.splitCount k bs i.length with
      | zero => rfl
      | succ n => rfl
    rw [hl, List.length_drop]
    show (_ >>= _ : Leak _).val = _
    rw [val_bind]
    by_cases hz : BlockBuffer.splitCount k bs i.length = 0
    · rw [if_pos hz, if_pos (decide_eq_true hz)]; rfl
    · rw [if_neg hz, if_neg (by simpa using hz), hf _ _ hs (blocks_shape hbs rfl).2.1]
      cases g s (blocks bs (BlockBuffer.splitCount k bs i.length) i) <;> rfl
  by_cases h : BlockBuffer.fits k input.length (bs - b.pos) = true
  · rw [digestBlocksL_fits wf h]
    simp only [BlockBuffer.digestBlocks]
    rw [if_pos h]; rfl
  · rw [digestBlocksL_over h]
    simp only [BlockBuffer.digestBlocks]
    rw [if_neg h]
    show (_ >>= _ : Leak _).val = _
    by_cases h0 : b.pos = 0
    · rw [fillL_zero h0, shows_bind]
      show (_ >>= _ : Leak _).val = _
      rw [pure_bind, rest _ _ _ hs wf.1]
      simp only [h0, ne_eq, not_true, if_false]
      split <;> rfl
    · have hge := over_le wf h
      have hp := wf.pos_le
      have hl : (input.take (bs - b.pos)).length = bs - b.pos := by rw [List.length_take]; omega
      have e : overwrite b.data b.pos (input.take (bs - b.pos)) = b.content ++ input.take (bs - b.pos) := overwrite_full (by rw [wf.1, hl]; omega)
      rw [fillL_pos wf h0 hge, shows_bind]
      show (_ >>= _ : Leak _).val = _
      simp only [ne_eq, h0, not_false_eq_true, if_true]
      rw [bind_assoc, val_bind, hf _ _ hs (one_shape (fill_length wf hge) (fill_length wf hge)).2.1, e]
      simp only [Option.bind_some]
      cases hg : g s [b.content ++ input.take (bs - b.pos)] with
      | none => simp only [Option.bind_none, ite_self]; rfl
      | some t =>
        simp only [Option.bind_some]
        show (restL _ _ _ _ _ _).val = _
        rw [rest _ _ _ (hk _ _ _ hs hg) (fill_length wf hge)]

theorem digestBlocksL_val (hbs : 0 < bs) (wf : b.WF k bs) (input : Bytes) {g : σ → List Bytes → Option σ}
    (hf : ∀ s l, BlocksOf bs l → (f s l).val = g s l) (s : σ) :
    (digestBlocksL k bs b input f s).val =
      (b.digestBlocks k bs input (fun (s : Option σ) l => s.bind fun s => g s l) (some s)).2.map fun t =>
        ((b.digestBlocks k bs input (fun (s : Option σ) l => s.bind fun s => g s l) (some s)).1, t) :=
  digestBlocksL_valI (I := fun _ => True) hbs wf input (fun s l _ => hf s l) (fun _ _ _ _ _ => trivial) s trivial

theorem digestBlocks_inv {I : σ → Prop} {g : σ → List Bytes → Option σ} (hk : ∀ s l t, I s → g s l = some t → I t) (k : BufKind) (bs : Nat) (b : BlockBuffer)
    (input : Bytes) {s t : σ} (hs : I s) (h : (b.digestBlocks k bs input (fun (s : Option σ) l => s.bind fun s => g s l) (some s)).2 = some t) : I t := by
  have one : ∀ (o : Option σ) (l : List Bytes), (∀ s, o = some s → I s) → ∀ t, (o.bind fun s => g s l) = some t → I t := by
    intro o l ho t ht
    cases o with
    | none => cases ht
    | some s => exact hk s l t (ho s rfl) ht
  have h0 : ∀ t, some s = some t → I t := fun t e => Option.some.inj e ▸ hs
  simp only [BlockBuffer.digestBlocks] at h
  split at h
  · exact h0 t h
  · split at h <;> (simp only at h; split at h)
    · exact one _ _ h0 t h
    · exact one _ _ (one _ _ h0) t h
    · exact h0 t h
    · exact one _ _ h0 t h

/-- The observations of an update begin with what determines the length of its input. -/
theorem digestBlocksL_len (hbs : 0 < bs) (hb : SameFill k bs b b') {r r' : List Obs}
    (h : (digestBlocksL k bs b input f s).obs ++ r = (digestBlocksL k bs b' input' f' s').obs ++ r') : Len input input' := by
  obtain ⟨hp, wf, wf'⟩ := hb
  by_cases h1 : BlockBuffer.fits k input.length (bs - b.pos) = true
  · by_cases h2 : BlockBuffer.fits k input'.length (bs - b'.pos) = true
    · rw [digestBlocksL_fits wf h1, digestBlocksL_fits wf' h2] at h
      simp only [shows, List.cons_append, List.cons.injEq, Obs.range.injEq] at h
      have := h.2.1.2
      show input.length = input'.length
      omega
    · rw [digestBlocksL_fits wf h1, digestBlocksL_over h2] at h
      simp only [shows, List.cons_append, List.cons.injEq, Obs.branch.injEq] at h
      exact absurd h.1 (by decide)
  · by_cases h2 : BlockBuffer.fits k input'.length (bs - b'.pos) = true
    · rw [digestBlocksL_over h1, digestBlocksL_fits wf' h2] at h
      simp only [shows, List.cons_append, List.cons.injEq, Obs.branch.injEq] at h
      exact absurd h.1 (by decide)
    · rw [digestBlocksL_over h1, digestBlocksL_over h2] at h
      by_cases h0 : b.pos = 0
      · rw [fillL_zero h0, fillL_zero (hp ▸ h0), shows_bind, shows_bind, shows_shows, shows_shows, pure_bind, pure_bind] at h
        simp only at h
        rw [restL_eq hbs wf.1, restL_eq hbs wf'.1, shows_shows, shows_shows] at h
        simp only [shows, List.cons_append, List.nil_append, List.cons.injEq, Obs.range.injEq] at h
        exact h.2.2.2.1.2
      · rw [fillL_pos wf h0 (over_le wf h1), fillL_pos wf' (hp ▸ h0) (over_le wf' h2), shows_bind, shows_bind, shows_shows, shows_shows] at h
        simp only [shows, List.cons_append, List.nil_append, List.cons.injEq, Obs.range.injEq] at h
        exact h.2.2.2.1.2
end

theorem Reads.of_obs {Q : α → β → Prop} {x : Leak α} {y : Leak β} {p : Prop} (h : ∀ r r', x.obs ++ r = y.obs ++ r' → p) (k : p → Reads Q x y) : Reads Q x y :=
  fun a b r r' ha hb he => k (h r r' he) a b r r' ha hb he
theorem Rel.reads {R : α → β → Prop} {x : Leak α} {y : Leak β} (h : Rel R x y) : Reads R x y := by
  intro a b r r' ha hb _
  obtain ⟨h1, h2⟩ := h
  rw [ha, hb] at h2
  cases h2 with
  | some h => exact ⟨by rw [h1], h⟩

/-! ### Whole hashers -/

/-- The observed core does what the checked core does. -/
structure Follows (c : CoreL τ ω) (cc : Rs.CoreC τ ω) : Prop where
  pos : 0 < c.bs
  kind : cc.kind = c.kind
  bs : cc.bs = c.bs
  init : c.init.val = cc.init
  upd : ∀ s l, BlocksOf c.bs l → (c.updateBlocks s l).val = cc.updateBlocks s l
  fin : ∀ s b, b.WF c.kind c.bs → (c.finalize s b).val = cc.finalize s b

/-- An update of a hasher of which a call has panicked. -/
theorem none_updates (cc : Rs.CoreC τ ω) (l : List Bytes) (b : BlockBuffer) : (l.foldl cc.core.update ⟨none, b⟩).core = none := by
  induction l generalizing b with
  | nil => rfl
  | cons d l ih =>
    have e : cc.core.update ⟨none, b⟩ d = ⟨none, (cc.core.update ⟨none, b⟩ d).buf⟩ := by
      have h : (cc.core.update ⟨none, b⟩ d).core = none := by
        simp only [Core.update, BlockBuffer.digestBlocks]
        split
        · rfl
        · split <;> (simp only; split <;> rfl)
      cases hu : cc.core.update ⟨none, b⟩ d with
      | mk x y => rw [hu] at h; cases h; rfl
    rw [List.foldl_cons, e]
    exact ih _

theorem digestBlocks_wf {k : BufKind} {bs : Nat} {b : BlockBuffer} (hbs : 0 < bs) (wf : b.WF k bs) (input : Bytes) (f : σ → List Bytes → σ) (s : σ) :
    (b.digestBlocks k bs input f s).1.WF k bs := by
  rw [Rs.digestBlocks_fst k bs b input f (fun (u : Unit) _ => u) s ()]
  exact (BlockBuffer.digestBlocks_spec hbs wf input (fun (u : Unit) _ => u) () (fun _ => rfl) (fun _ _ _ => rfl)).1

/-- The observed core does what the checked core does, on states that satisfy an invariant. -/
structure FollowsI (c : CoreL τ ω) (cc : Rs.CoreC τ ω) (I : τ → Prop) : Prop where
  pos : 0 < c.bs
  kind : cc.kind = c.kind
  bs : cc.bs = c.bs
  init : c.init.val = cc.init
  start : ∀ s, cc.init = some s → I s
  upd : ∀ s l, I s → BlocksOf c.bs l → (c.updateBlocks s l).val = cc.updateBlocks s l
  keep : ∀ s l t, I s → cc.updateBlocks s l = some t → I t
  fin : ∀ s b, I s → b.WF c.kind c.bs → (c.finalize s b).val = cc.finalize s b

theorem FollowsI.run {c : CoreL τ ω} {cc : Rs.CoreC τ ω} {I : τ → Prop} (h : FollowsI c cc I) (l : List Bytes) : (c.runL l).val = cc.run l := by
  have key : ∀ (l : List Bytes) (b : BlockBuffer) (s : τ), I s → b.WF c.kind c.bs →
      ((l.foldlM c.updateL (b, s)).val.bind fun x => (c.finalize x.2 x.1).val) = cc.core.finish (l.foldl cc.core.update ⟨some s, b⟩) := by
    intro l
    induction l with
    | nil => exact fun b s hs wf => h.fin s b hs wf
    | cons d l ih =>
      intro b s hs wf
      rw [List.foldlM_cons, List.foldl_cons, val_bind]
      have e : (c.updateL (b, s) d).val = (cc.core.update ⟨some s, b⟩ d).core.map fun t => ((cc.core.update ⟨some s, b⟩ d).buf, t) := by
        rw [CoreL.updateL, digestBlocksL_valI h.pos wf d h.upd h.keep s hs]
        simp only [Core.update, Rs.CoreC.core, h.kind, h.bs]
      have wf' : (cc.core.update ⟨some s, b⟩ d).buf.WF c.kind c.bs := by
        simp only [Core.update, Rs.CoreC.core, h.kind, h.bs]
        exact digestBlocks_wf h.pos wf d _ _
      have hI : ∀ t, (cc.core.update ⟨some s, b⟩ d).core = some t → I t := fun t ht => digestBlocks_inv h.keep cc.kind cc.bs b d hs ht
      rw [e]
      cases hu : cc.core.update ⟨some s, b⟩ d with
      | mk t b1 =>
        rw [hu] at wf' hI
        cases t with
        | none =>
          have := none_updates cc l b1
          rw [Core.finish]
          show none = (l.foldl cc.core.update ⟨none, b1⟩).core.bind _
          rw [this]; rfl
        | some t => exact ih b1 t (hI t rfl) wf'
  rw [CoreL.runL, val_bind, h.init, Rs.CoreC.run]
  have hn : cc.core.new = ⟨cc.init, BlockBuffer.empty c.bs⟩ := by rw [Core.new]; simp only [Rs.CoreC.core, h.bs]
  rw [hn]
  cases hi : cc.init with
  | none =>
    show none = (l.foldl cc.core.update ⟨none, _⟩).core.bind _
    rw [none_updates]; rfl
  | some s =>
    show ((l.foldlM c.updateL (BlockBuffer.empty c.bs, s)) >>= _ : Leak ω).val = _
    rw [val_bind]
    exact key l _ s (h.start s hi) (BlockBuffer.WF.empty h.pos)

theorem Follows.run {c : CoreL τ ω} {cc : Rs.CoreC τ ω} (h : Follows c cc) (l : List Bytes) : (c.runL l).val = cc.run l :=
  FollowsI.run (I := fun _ => True) ⟨h.pos, h.kind, h.bs, h.init, fun _ _ => trivial, fun s l _ => h.upd s l, fun _ _ _ _ _ => trivial, fun s b _ => h.fin s b⟩ l

/-- Chunks of the same lengths. -/
theorem each_of_lengths {l l' : List Bytes} (h : l.map List.length = l'.map List.length) : Each Len l l' := by
  induction l generalizing l' with
  | nil => cases l' with
    | nil => exact .nil
    | cons => cases h
  | cons a l ih => cases l' with
    | nil => cases h
    | cons b l' => exact .cons (List.cons.inj h).1 (ih (List.cons.inj h).2)

/-- Cores whose observations depend on lengths only; `R` relates the states of two hashers after updates of the same lengths. -/
structure Quiet (c : CoreL τ ω) (R : τ → τ → Prop) : Prop where
  pos : 0 < c.bs
  init : Rel R c.init c.init
  upd : ∀ s s' l l', R s s' → SameShape c.bs l l' → Rel R (c.updateBlocks s l) (c.updateBlocks s' l')
  fin : ∀ s s' b b', R s s' → SameFill c.kind c.bs b b' → Rel Any (c.finalize s b) (c.finalize s' b')

theorem SameFill.empty {k : BufKind} {bs : Nat} (h : 0 < bs) : SameFill k bs (BlockBuffer.empty bs) (BlockBuffer.empty bs) :=
  ⟨rfl, BlockBuffer.WF.empty h, BlockBuffer.WF.empty h⟩

theorem Quiet.run {c : CoreL τ ω} {R : τ → τ → Prop} (h : Quiet c R) {l l' : List Bytes} (hl : l.map List.length = l'.map List.length) :
    Rel Any (c.runL l) (c.runL l') := by
  refine Rel.bind h.init fun s s' hs => Rel.bind (R := fun x y => SameFill c.kind c.bs x.1 y.1 ∧ R x.2 y.2) ?_ fun x y hx => h.fin _ _ _ _ hx.2 hx.1
  exact Rel.foldlM (each_of_lengths hl) ⟨SameFill.empty h.pos, hs⟩ fun x y d d' hx hd => digestBlocksL_rel h.pos hx.1 hd hx.2 h.upd

/-- The other way round: the observations show the lengths. -/
theorem Quiet.lengths {c : CoreL τ ω} {R : τ → τ → Prop} (h : Quiet c R) {l l' : List Bytes} (hl : l.length = l'.length) :
    Reads (fun _ _ => l.map List.length = l'.map List.length) (c.runL l) (c.runL l') := by
  have key : ∀ (l l' : List Bytes) (b b' : BlockBuffer) (s s' : τ), l.length = l'.length → SameFill c.kind c.bs b b' → R s s' →
      Reads (fun x y => l.map List.length = l'.map List.length ∧ SameFill c.kind c.bs x.1 y.1 ∧ R x.2 y.2) (l.foldlM c.updateL (b, s)) (l'.foldlM c.updateL (b', s')) := by
    intro l
    induction l with
    | nil =>
      intro l' b b' s s' hl hb hs
      cases l' with
      | nil => exact Reads.pure ⟨rfl, hb, hs⟩
      | cons => cases hl
    | cons d l ih =>
      intro l' b b' s s' hl hb hs
      cases l' with
      | nil => cases hl
      | cons d' l' =>
        rw [List.foldlM_cons, List.foldlM_cons]
        refine Reads.bind (Q := fun x y => d.length = d'.length ∧ SameFill c.kind c.bs x.1 y.1 ∧ R x.2 y.2)
          (Reads.of_obs (fun r r' e => digestBlocksL_len h.pos hb e) fun (e : d.length = d'.length) =>
            (digestBlocksL_rel h.pos hb e hs h.upd).reads.mono fun _ _ _ _ hq => ⟨e, hq⟩) ?_
        rintro x y - - ⟨e, q1, q2⟩
        refine (ih l' x.1 y.1 x.2 y.2 (Nat.succ.inj hl) q1 q2).mono ?_
        rintro u v - - ⟨r1, r2⟩
        exact ⟨by rw [List.map_cons, List.map_cons, e, r1], r2⟩
  refine Reads.bind h.init.reads fun s s' _ _ hs => Reads.bind (key l l' _ _ s s' hl (SameFill.empty h.pos) hs) ?_
  rintro x y - - ⟨r1, r2, r3⟩
  exact (h.fin _ _ _ _ r3 r2).reads.keep r1

/-- Cores whose observations determine the blocks; `I` holds of the states that occur. -/
structure Telling (c : CoreL τ ω) (I : τ → Prop) : Prop where
  pos : 0 < c.bs
  init : ∀ s, c.init.val = some s → I s
  upd : ∀ s l l', I s → SameShape c.bs l l' → Reads (fun x y => l = l' ∧ x = y ∧ I x) (c.updateBlocks s l) (c.updateBlocks s l')
  fin : ∀ s b b', I s → SameFill c.kind c.bs b b' → Reads (fun _ _ => b.content = b'.content) (c.finalize s b) (c.finalize s b')

theorem flatten_lengths {l l' : List Bytes} (hl : l.map List.length = l'.map List.length) (h : l.flatten = l'.flatten) : l = l' := by
  induction l generalizing l' with
  | nil => cases l' with
    | nil => rfl
    | cons => cases hl
  | cons a l ih => cases l' with
    | nil => cases hl
    | cons b l' =>
      rw [List.flatten_cons, List.flatten_cons] at h
      obtain ⟨h1, h2⟩ := List.append_inj h (List.cons.inj hl).1
      rw [h1, ih (List.cons.inj hl).2 h2]

theorem Telling.run {c : CoreL τ ω} {I : τ → Prop} (h : Telling c I) {l l' : List Bytes} (hl : l.length = l'.length) :
    Reads (fun _ _ => l = l') (c.runL l) (c.runL l') := by
  have key : ∀ (l l' : List Bytes) (b b' : BlockBuffer) (s : τ), l.length = l'.length → SameFill c.kind c.bs b b' → I s →
      Reads (fun x y => l.map List.length = l'.map List.length ∧ SameFill c.kind c.bs x.1 y.1 ∧ x.2 = y.2 ∧ I x.2 ∧
        ∃ C, b.content ++ l.flatten = C ++ x.1.content ∧ b'.content ++ l'.flatten = C ++ y.1.content)
        (l.foldlM c.updateL (b, s)) (l'.foldlM c.updateL (b', s)) := by
    intro l
    induction l with
    | nil =>
      intro l' b b' s hl hb hs
      cases l' with
      | nil => exact Reads.pure ⟨rfl, hb, rfl, hs, [], by simp, by simp⟩
      | cons => cases hl
    | cons d l ih =>
      intro l' b b' s hl hb hs
      cases l' with
      | nil => cases hl
      | cons d' l' =>
        rw [List.foldlM_cons, List.foldlM_cons]
        refine Reads.of_obs (p := d.length = d'.length) (fun r r' e => ?_) fun hd => Reads.bind (digestBlocksL_reads h.pos hb hd hs h.upd) ?_
        · rw [obs_bind, obs_bind, List.append_assoc, List.append_assoc] at e
          exact digestBlocksL_len h.pos hb e
        rintro ⟨b1, s1⟩ ⟨b2, s2⟩ - - ⟨q1, q2, q3, C, c1, c2⟩
        cases q2
        refine (ih l' b1 b2 s1 (Nat.succ.inj hl) q1 q3).mono ?_
        rintro x y - - ⟨r0, r1, r2, r3, D, d1, d2⟩
        refine ⟨by rw [List.map_cons, List.map_cons, hd, r0], r1, r2, r3, C ++ D, ?_, ?_⟩
        · rw [List.flatten_cons, ← List.append_assoc, c1, List.append_assoc, d1, List.append_assoc]
        · rw [List.flatten_cons, ← List.append_assoc, c2, List.append_assoc, d2, List.append_assoc]
  refine Reads.bind (Reads.refl _) ?_
  rintro s _ hs - rfl
  refine Reads.bind (key l l' _ _ s hl (SameFill.empty h.pos) (h.init s hs)) ?_
  rintro ⟨b1, s1⟩ ⟨b2, s2⟩ - - ⟨q0, q1, q2, q3, C, c1, c2⟩
  cases q2
  refine (h.fin s1 b1 b2 q3 q1).mono fun _ _ _ _ e => flatten_lengths q0 ?_
  simp only [BlockBuffer.content_empty, List.nil_append] at c1 c2
  rw [c1, c2, e]

theorem Reads.eq {p : Prop} {x : Leak α} {y : Leak β} (h : Reads (fun _ _ => p) x y) (hx : x.val.isSome) (hy : y.val.isSome) (ho : x.obs = y.obs) : p := by
  obtain ⟨a, ha⟩ := Option.isSome_iff_exists.mp hx
  obtain ⟨b, hb⟩ := Option.isSome_iff_exists.mp hy
  exact (h a b [] [] ha hb (by rw [ho])).2

/-! ### Counters, padding, output -/

theorem digestPadL_val {bs : Nat} {b : BlockBuffer} {k : BufKind} (wf : b.WF k bs) (delim : Byte) (suffix : Bytes) {f : τ → Bytes → Leak τ}
    {g : τ → Bytes → Option τ} (hf : ∀ s x, x.length = bs → (f s x).val = g s x) (s : τ) :
    (digestPadL bs b delim suffix f s).val = Rs.digestPadC bs b delim suffix g s := by
  have hp := wf.pos_le
  have hl : (b.padWithZeros bs).1.length = bs := by
    simp only [BlockBuffer.padWithZeros, List.length_append, List.length_replicate, List.length_take, wf.1]; omega
  simp only [digestPadL, Rs.digestPadC, val_bind, val_check, val_emit, val_upd, val_usub, val_branch, val_copy]
  refine bind_congr fun _ => ?_
  show Option.bind (Rs.upd _ _ _) _ = Option.bind (Rs.upd _ _ _) _
  cases hu : Rs.upd (b.padWithZeros bs).1 b.pos delim with
  | none => rfl
  | some buf =>
    have hbuf : buf.length = bs := by
      unfold Rs.upd at hu
      split at hu
      · cases hu; rw [List.length_set, hl]
      · cases hu
    simp only [Option.bind_some]
    cases hn : Rs.usub bs suffix.length with
    | none => rfl
    | some n =>
      have hn' : n = bs - suffix.length ∧ suffix.length ≤ bs := by
        unfold Rs.usub at hn; split at hn <;> cases hn; exact ⟨rfl, by assumption⟩
      have hcp : ∀ (x : Bytes) (s : τ), x.length = bs → ((Rs.copy x n bs suffix) >>= fun y => (f s y).val) = ((Rs.copy x n bs suffix) >>= fun y => g s y) := by
        intro x s hx
        rw [Rs.copy]
        split
        · next hc =>
          refine hf s _ ?_
          rw [List.length_append, List.length_append, List.length_take, List.length_drop, hx]; omega
        · rfl
      show (Rs.usub bs b.pos >>= _) = (Rs.usub bs b.pos >>= _)
      refine bind_congr fun r => bind_congr fun m => ?_
      split
      · rw [hf s buf hbuf]
        exact bind_congr fun t => hcp _ t List.length_replicate
      · exact hcp _ s hbuf

theorem digestPadL_rel {bs : Nat} {b b' : BlockBuffer} {k : BufKind} (hb : SameFill k bs b b') {delim : Byte} {suffix suffix' : Bytes} (hs : Len suffix suffix')
    {R : τ → τ → Prop} {f : τ → Bytes → Leak τ} (hf : ∀ s s' x x', R s s' → x.length = bs → x'.length = bs → Rel R (f s x) (f s' x')) {s s' : τ} (h : R s s') :
    Rel R (digestPadL bs b delim suffix f s) (digestPadL bs b' delim suffix' f s') := by
  have hpad : ∀ {b : BlockBuffer}, b.WF k bs → (b.padWithZeros bs).1.length = bs := fun {b} wf => by
    have := wf.pos_le
    simp only [BlockBuffer.padWithZeros, List.length_append, List.length_replicate, List.length_take, wf.1]; omega
  have hcp : ∀ (x x' : Bytes) (n : Nat), x.length = bs → x'.length = bs →
      Rel (fun y y' => y.length = bs ∧ y'.length = bs) (copy x n bs suffix) (copy x' n bs suffix') := by
    intro x x' n hx hx'
    refine Rel.of_emit ?_
    rw [Rs.copy, Rs.copy, hx, hx', ← hs]
    split
    · next hc =>
      refine .some ⟨?_, ?_⟩
      · rw [List.length_append, List.length_append, List.length_take, List.length_drop, hx]; omega
      · rw [List.length_append, List.length_append, List.length_take, List.length_drop, hx', ← hs]; omega
    · exact .none
  unfold digestPadL
  rw [show suffix'.length = suffix.length from hs.symm, ← hb.1]
  refine Rel.bind (Rel.refl _) fun _ _ _ => Rel.bind (R := fun y y' => y.length = bs ∧ y'.length = bs) (Rel.of_emit (.some ⟨hpad hb.2.1, hpad hb.2.2⟩)) fun x x' hx =>
    Rel.bind (R := fun y y' => y.length = bs ∧ y'.length = bs) ?_ fun y y' hy => Rel.bind (Rel.refl _) fun n n' hn => Rel.bind (Rel.refl _) fun _ _ h1 => ?_
  · refine Rel.of_emit ?_
    rw [Rs.upd, Rs.upd, hx.1, hx.2]
    split
    · exact .some ⟨by rw [List.length_set]; exact hx.1, by rw [List.length_set]; exact hx.2⟩
    · exact .none
  · subst hn h1
    refine Rel.bind (Rel.refl _) fun r r' hr => ?_
    subst hr
    refine Rel.branch Iff.rfl ?_ ?_
    · exact Rel.bind (hf _ _ _ _ h hy.1 hy.2) fun t t' ht => Rel.bind (hcp _ _ _ List.length_replicate List.length_replicate) fun z z' hz => hf _ _ _ _ ht hz.1 hz.2
    · exact Rel.bind (hcp _ _ _ hy.1 hy.2) fun z z' hz => hf _ _ _ _ h hz.1 hz.2

theorem digestPadL_reads {bs : Nat} {b b' : BlockBuffer} (hb : SameFill .eager bs b b') {delim : Byte} {suffix : Bytes}
    {f : τ → Bytes → Leak τ} {s : τ} (hf : ∀ x x', x.length = bs → x'.length = bs → Reads (fun a a' => x = x' ∧ a = a') (f s x) (f s x')) :
    Reads (fun x y => b.content = b'.content ∧ x = y) (digestPadL bs b delim suffix f s) (digestPadL bs b' delim suffix f s) := by
  obtain ⟨hp, wf, wf'⟩ := hb
  have hpad : ∀ {b : BlockBuffer}, b.WF .eager bs → (b.padWithZeros bs).1.length = bs ∧ b.pos < bs ∧
      ((b.padWithZeros bs).1.set b.pos delim).take b.pos = b.content := fun {b} wf => by
    have h1 := wf.pos_le
    refine ⟨by simp only [BlockBuffer.padWithZeros, List.length_append, List.length_replicate, List.length_take, wf.1]; omega, wf.2, ?_⟩
    rw [List.take_set_of_le (Nat.le_refl _)]
    simp only [BlockBuffer.padWithZeros]
    rw [show b.data.take b.pos = b.content from rfl, List.take_append_of_le_length (by rw [wf.length_content]; exact Nat.le_refl _),
      List.take_of_length_le (by rw [wf.length_content]; exact Nat.le_refl _)]
  obtain ⟨p1, p2, p3⟩ := hpad wf
  obtain ⟨q1, q2, q3⟩ := hpad wf'
  unfold digestPadL
  have hu : upd (b.padWithZeros bs).1 b.pos delim = emit (.index b.pos) (some ((b.padWithZeros bs).1.set b.pos delim)) := by
    rw [upd, Rs.upd, if_pos (by rw [p1]; exact p2)]
  have hu' : upd (b'.padWithZeros bs).1 b'.pos delim = emit (.index b'.pos) (some ((b'.padWithZeros bs).1.set b'.pos delim)) := by
    rw [upd, Rs.upd, if_pos (by rw [q1]; exact q2)]
  rw [emit_some, emit_some, hu, hu', emit_some, emit_some, shows_shows, shows_shows, ← hp]
  rw [← hp] at q3
  generalize hx : (b.padWithZeros bs).1.set b.pos delim = x at *
  generalize hx' : (b'.padWithZeros bs).1.set b.pos delim = x' at *
  have lx : x.length = bs := by rw [← hx, List.length_set, p1]
  have lx' : x'.length = bs := by rw [← hx', List.length_set]; exact q1
  refine Reads.bind (Reads.refl _) fun _ _ hc _ _ => Reads.shows rfl (Reads.bind (Reads.refl _) ?_)
  rintro n _ hn - rfl
  refine Reads.bind (Reads.refl _) ?_
  rintro m _ hm - rfl
  refine Reads.bind (Reads.refl _) ?_
  rintro r _ hr - rfl
  have hn' : n = bs - suffix.length ∧ suffix.length ≤ bs := by
    simp only [val_usub, Rs.usub] at hn; split at hn <;> cases hn; exact ⟨rfl, by assumption⟩
  have hr' : r = bs - b.pos - 1 := by
    simp only [val_usub, Rs.usub] at hm hr; split at hm <;> cases hm; split at hr <;> cases hr; rfl
  refine Reads.branch (fun _ _ => ?_) (fun hlt _ => ?_)
  · refine Reads.bind (hf x x' lx lx') ?_
    rintro t _ - - ⟨e, rfl⟩
    refine (Reads.refl _).mono fun _ _ _ _ h => ⟨?_, h⟩
    rw [← p3, ← q3, e]
  · rw [copy_ok (by rw [lx]; exact Nat.le_refl _) (by omega), copy_ok (by rw [lx']; exact Nat.le_refl _) (by omega), emit_some, emit_some]
    have ho : ∀ y : Bytes, y.length = bs → (overwrite y n suffix).length = bs ∧ (overwrite y n suffix).take b.pos = y.take b.pos := by
      intro y hy
      refine ⟨by rw [length_overwrite (by omega), hy], ?_⟩
      rw [overwrite, List.append_assoc, List.take_append_of_le_length (by rw [List.length_take]; omega), List.take_take, Nat.min_eq_left (by omega)]
    refine Reads.shows rfl ((hf _ _ (ho x lx).1 (ho x' lx').1).mono fun _ _ _ _ h => ⟨?_, h.2⟩)
    rw [← p3, ← q3, ← (ho x lx).2, ← (ho x' lx').2, h.1]

theorem countedL_follows {w : Nat} {k : Count.Book w} {h0 : Leak τ} {h0' : Option τ} {comp : τ → List Bytes → Leak τ} {comp' : τ → List Bytes → Option τ}
    {out : τ → Nat → BlockBuffer → Leak ω} {out' : τ → Nat → BlockBuffer → Option ω} (hp : 0 < k.bs) (hi : h0.val = h0')
    (hc : ∀ s l, BlocksOf k.bs l → (comp s l).val = comp' s l) (ho : ∀ s v b, b.WF k.kind k.bs → (out s v b).val = out' s v b) :
    Follows (countedL k h0 comp out) (Rs.countedC k h0' comp' out') where
  pos := hp
  kind := rfl
  bs := rfl
  init := by
    simp only [countedL, Rs.countedC, val_bind, hi, val_pure]; cases h0' <;> rfl
  upd := fun s l hl => by
    simp only [countedL, Rs.countedC, val_bind, val_seen, val_pure]
    rw [hc s.1 l hl]; rfl
  fin := fun s b wf => by
    simp only [countedL, Rs.countedC, val_bind, val_seen]
    exact bind_congr fun v => ho s.1 v b wf

theorem countedL_quiet {w : Nat} {k : Count.Book w} {h0 : Leak τ} {comp : τ → List Bytes → Leak τ} {out : τ → Nat → BlockBuffer → Leak ω}
    {R : τ → τ → Prop} (hp : 0 < k.bs) (hi : Rel R h0 h0) (hc : ∀ s s' l l', R s s' → SameShape k.bs l l' → Rel R (comp s l) (comp s' l'))
    (ho : ∀ s s' v b b', R s s' → SameFill k.kind k.bs b b' → Rel Any (out s v b) (out s' v b')) :
    Quiet (countedL k h0 comp out) (fun s s' => R s.1 s'.1 ∧ s.2 = s'.2) where
  pos := hp
  init := Rel.bind hi fun _ _ h => Rel.pure ⟨h, rfl⟩
  upd := fun s s' l l' hs hl => by
    show Rel _ (Leak.seen (k.upd s.2 l.length) >>= _) (Leak.seen (k.upd s'.2 l'.length) >>= _)
    refine Rel.bind (Rel.seen (by rw [hs.2, hl.1])) fun n n' hn => Rel.bind (hc _ _ _ _ hs.1 hl) fun h h' hh => Rel.pure ⟨hh, hn⟩
  fin := fun s s' b b' hs hb => by
    show Rel _ (Leak.seen (k.fin s.2.toNat b.pos) >>= _) (Leak.seen (k.fin s'.2.toNat b'.pos) >>= _)
    refine Rel.bind (Rel.seen (by rw [hs.2, hb.1])) fun v v' hv => ?_
    subst hv
    exact ho _ _ _ _ _ hs.1 hb

theorem countedL_telling {w : Nat} {k : Count.Book w} {h0 : Leak τ} {comp : τ → List Bytes → Leak τ} {out : τ → Nat → BlockBuffer → Leak ω}
    {I : τ → Prop} (hp : 0 < k.bs) (hi : ∀ s, h0.val = some s → I s)
    (hc : ∀ s l l', I s → SameShape k.bs l l' → Reads (fun x y => l = l' ∧ x = y ∧ I x) (comp s l) (comp s l'))
    (ho : ∀ s v b b', I s → SameFill k.kind k.bs b b' → Reads (fun _ _ => b.content = b'.content) (out s v b) (out s v b')) :
    Telling (countedL k h0 comp out) (fun s => I s.1) where
  pos := hp
  init := fun s hs => by
    obtain ⟨a, ha, hb, -⟩ := bind_some hs
    cases hb
    exact hi a ha
  upd := fun s l l' hs hl => by
    show Reads _ (Leak.seen (k.upd s.2 l.length) >>= _) (Leak.seen (k.upd s.2 l'.length) >>= _)
    rw [hl.1]
    refine Reads.bind (Reads.refl _) ?_
    rintro n _ - - rfl
    refine Reads.bind (hc _ _ _ hs hl) ?_
    rintro h _ - - ⟨e, rfl, hh⟩
    exact Reads.pure ⟨e, rfl, hh⟩
  fin := fun s b b' hs hb => by
    show Reads _ (Leak.seen (k.fin s.2.toNat b.pos) >>= _) (Leak.seen (k.fin s.2.toNat b'.pos) >>= _)
    rw [hb.1]
    refine Reads.bind (Reads.refl _) ?_
    rintro v _ - - rfl
    exact ho _ _ _ _ hs hb

/-- Loops over blocks. -/
theorem blocks_reads {f : τ → Bytes → Leak τ} {I : τ → Prop} {n : Nat} (hI : ∀ s x t, I s → x.length = n → (f s x).val = some t → I t)
    (hf : ∀ s x x', I s → x.length = n → x'.length = n → Reads (fun a a' => x = x' ∧ a = a') (f s x) (f s x')) (s : τ) (l l' : List Bytes) (hs : I s)
    (hl : SameShape n l l') : Reads (fun x y => l = l' ∧ x = y ∧ I x) (l.foldlM f s) (l'.foldlM f s) := by
  induction l generalizing s l' with
  | nil => cases l' with
    | nil => exact Reads.pure ⟨rfl, rfl, hs⟩
    | cons => cases hl.1
  | cons x l ih => cases l' with
    | nil => cases hl.1
    | cons x' l' =>
      rw [List.foldlM_cons, List.foldlM_cons]
      obtain ⟨h0, h1, h2⟩ := hl
      refine Reads.bind (hf s x x' hs (h1 x List.mem_cons_self) (h2 x' List.mem_cons_self)) ?_
      rintro t _ ht - ⟨e, rfl⟩
      refine (ih t l' (hI s x t hs (h1 x List.mem_cons_self) ht)
        ⟨Nat.succ.inj h0, fun c hc => h1 c (List.mem_cons_of_mem _ hc), fun c hc => h2 c (List.mem_cons_of_mem _ hc)⟩).mono ?_
      rintro a b - - ⟨e1, e2, e3⟩
      exact ⟨by rw [e, e1], e2, e3⟩

theorem blocks_rel {f : τ → Bytes → Leak τ} {R : τ → τ → Prop} {n : Nat}
    (hf : ∀ s s' x x', R s s' → x.length = n → x'.length = n → Rel R (f s x) (f s' x')) (s s' : τ) (l l' : List Bytes) (hs : R s s')
    (hl : SameShape n l l') : Rel R (l.foldlM f s) (l'.foldlM f s') :=
  Rel.foldlM (Q := fun x x' => x.length = n ∧ x'.length = n) (Rel.each_of_len hl.1 fun a ha b hb => ⟨hl.2.1 a ha, hl.2.2 b hb⟩) hs
    fun s t a b hs h => hf s t a b hs h.1 h.2

theorem blocks_val {f : τ → Bytes → Leak τ} {g : τ → Bytes → Option τ} {n : Nat} (h : ∀ s x, x.length = n → (f s x).val = g s x) (s : τ) (l : List Bytes)
    (hl : BlocksOf n l) : (l.foldlM f s).val = l.foldlM g s := by
  rw [val_foldlM]
  induction l generalizing s with
  | nil => rfl
  | cons x l ih =>
    rw [List.foldlM_cons, List.foldlM_cons, h s x (hl x List.mem_cons_self)]
    exact bind_congr fun t => ih t fun c hc => hl c (List.mem_cons_of_mem _ hc)

theorem plainL_follows {kind : BufKind} {bs : Nat} {i : Leak τ} {i' : Option τ} {comp : τ → Bytes → Leak τ} {comp' : τ → Bytes → Option τ}
    {out : τ → BlockBuffer → Leak ω} {out' : τ → BlockBuffer → Option ω} (hp : 0 < bs) (hi : i.val = i')
    (hc : ∀ s x, x.length = bs → (comp s x).val = comp' s x) (ho : ∀ s b, b.WF kind bs → (out s b).val = out' s b) :
    Follows (plainL kind bs i comp out) (Rs.plainC kind bs i' comp' out') where
  pos := hp
  kind := rfl
  bs := rfl
  init := hi
  upd := fun s l hl => blocks_val hc s l hl
  fin := ho

theorem truncateL_val (side : TruncSide) (n : Nat) (full : Bytes) : (truncateL side n full).val = Rs.truncateC side n full := by
  cases side <;> simp only [truncateL, Rs.truncateC, val_bind, val_usub, val_slice, val_copy]
theorem truncateL_rel (side : TruncSide) (n : Nat) {x y : Bytes} (h : Len x y) : Rel Any (truncateL side n x) (truncateL side n y) := by
  unfold truncateL
  rw [show y.length = x.length from h.symm]
  refine Rel.bind (Rel.refl _) fun m m' hm => ?_
  subst hm
  cases side
  · exact Rel.bind (Rel.slice h rfl rfl) fun _ _ h => (Rel.copy rfl rfl rfl h).mono fun _ _ _ => trivial
  · exact Rel.bind (Rel.slice h rfl rfl) fun _ _ h => (Rel.copy rfl rfl rfl h).mono fun _ _ _ => trivial
theorem outBEL_val {w : Nat} (n : Nat) (x : List (BitVec w)) : (outBEL n x).val = Rs.outBE n x := val_store _ _ _ _
theorem outLEL_val {w : Nat} (n : Nat) (x : List (BitVec w)) : (outLEL n x).val = Rs.outLE n x := val_store _ _ _ _
theorem outBEL_rel {w : Nat} (n : Nat) {x y : List (BitVec w)} (h : Len x y) : Rel Len (outBEL n x) (outBEL n y) :=
  Rel.store rfl h fun _ _ => by rw [Len, length_beBytes, length_beBytes]
theorem outLEL_rel {w : Nat} (n : Nat) {x y : List (BitVec w)} (h : Len x y) : Rel Len (outLEL n x) (outLEL n y) :=
  Rel.store rfl h fun _ _ => by rw [Len, length_leBytes, length_leBytes]

end Hashes.Leak
