import Verif.Proof.Leak.Run
/- Whole hashers whose observations depend on lengths only as long as nothing special is found, and hashers whose observations tell lengths
and some more. -/
namespace Hashes.Leak
variable {α β γ δ σ τ ω : Type}

/-- Two runs that return, with results in `G` and `G'`, show the same. -/
def While (G : α → Prop) (G' : β → Prop) (Q : α → β → Prop) (x : Leak α) (y : Leak β) : Prop :=
  ∀ a b, x.val = some a → y.val = some b → G a → G' b → x.obs = y.obs ∧ Q a b

namespace While
variable {G : α → Prop} {G' : β → Prop} {Q : α → β → Prop} {H : γ → Prop} {H' : δ → Prop} {S : γ → δ → Prop}

theorem of_rel {x : Leak α} {y : Leak β} (h : Rel Q x y) : While G G' Q x y := by
  intro a b ha hb _ _
  have h2 := h.2
  rw [ha, hb] at h2
  cases h2 with | some h2 => exact ⟨h.1, h2⟩
theorem pure {a : α} {b : β} (h : G a → G' b → Q a b) : While G G' Q (Pure.pure a) (Pure.pure b) := by
  rintro _ _ ⟨⟩ ⟨⟩ hg hg'; exact ⟨rfl, h hg hg'⟩
theorem shows {x : Leak α} {y : Leak β} {o o' : List Obs} (ho : o = o') (h : While G G' Q x y) : While G G' Q (Leak.shows o x) (Leak.shows o' y) := by
  subst ho
  intro a b ha hb hg hg'
  obtain ⟨h1, h2⟩ := h a b ha hb hg hg'
  exact ⟨congrArg (o ++ ·) h1, h2⟩
theorem bind {x : Leak α} {y : Leak β} {f : α → Leak γ} {g : β → Leak δ} (h : While G G' Q x y) (hG : ∀ a c, x.val = some a → (f a).val = some c → H c → G a)
    (hG' : ∀ b d, y.val = some b → (g b).val = some d → H' d → G' b)
    (hf : ∀ a b, x.val = some a → y.val = some b → Q a b → While H H' S (f a) (g b)) : While H H' S (x >>= f) (y >>= g) := by
  intro c d hc hd gc gd
  obtain ⟨a, ha, hfa, ho⟩ := bind_some hc
  obtain ⟨b, hb, hgb, ho'⟩ := bind_some hd
  obtain ⟨h1, h2⟩ := h a b ha hb (hG a c ha hfa gc) (hG' b d hb hgb gd)
  obtain ⟨h3, h4⟩ := hf a b ha hb h2 c d hfa hgb gc gd
  exact ⟨by rw [ho, ho', h1, h3], h4⟩
/-- After something that shows the same anyway. -/
theorem rel_bind {x : Leak α} {y : Leak β} {f : α → Leak γ} {g : β → Leak δ} (h : Rel Q x y)
    (hf : ∀ a b, x.val = some a → y.val = some b → Q a b → While H H' S (f a) (g b)) : While H H' S (x >>= f) (y >>= g) :=
  bind (G := fun _ => True) (G' := fun _ => True) (of_rel h) (fun _ _ _ _ _ => trivial) (fun _ _ _ _ _ => trivial) hf
theorem mono {R : α → β → Prop} {x : Leak α} {y : Leak β} (h : While G G' Q x y) (hR : ∀ a b, x.val = some a → y.val = some b → Q a b → R a b) : While G G' R x y :=
  fun a b ha hb hg hg' => ⟨(h a b ha hb hg hg').1, hR a b ha hb (h a b ha hb hg hg').2⟩
end While

section
variable {k : BufKind} {bs : Nat} {b b' : BlockBuffer} {input input' : Bytes} {f f' : σ → List Bytes → Leak σ} {s s' : σ}

/-- What is lost stays lost. -/
theorem restL_keep {G : σ → Prop} (hbs : 0 < bs) (hk : ∀ s l t, BlocksOf bs l → (f s l).val = some t → G t → G s) {data : Bytes} (hd : data.length = bs)
    {input : Bytes} {s : σ} {x : BlockBuffer × σ} (hx : (restL k bs data input f s).val = some x) (hg : G x.2) : G s := by
  rw [restL_eq hbs hd] at hx
  obtain ⟨t, ht, h2, -⟩ := bind_some (show (_ >>= _ : Leak _).val = some x from hx)
  change some (_, t) = some x at h2
  cases h2
  split at ht
  · cases ht; exact hg
  · exact hk _ _ _ (blocks_shape hbs rfl).2.1 ht hg

theorem digestBlocksL_keep {G : σ → Prop} (hbs : 0 < bs) (hk : ∀ s l t, BlocksOf bs l → (f s l).val = some t → G t → G s) (wf : b.WF k bs)
    {x : BlockBuffer × σ} (hx : (digestBlocksL k bs b input f s).val = some x) (hg : G x.2) : G s := by
  by_cases h : BlockBuffer.fits k input.length (bs - b.pos) = true
  · rw [digestBlocksL_fits wf h] at hx; cases hx; exact hg
  · rw [digestBlocksL_over h] at hx
    by_cases h0 : b.pos = 0
    · rw [fillL_zero h0, shows_bind, pure_bind] at hx
      exact restL_keep (k := k) hbs hk wf.1 hx hg
    · have hge := over_le wf h
      rw [fillL_pos wf h0 hge, shows_bind, bind_assoc] at hx
      obtain ⟨t, ht, h2, -⟩ := bind_some (show (_ >>= _ : Leak _).val = some x from hx)
      rw [pure_bind] at h2
      exact hk _ _ _ (one_shape (fill_length wf hge) (fill_length wf hge)).2.1 ht (restL_keep (k := k) hbs hk (fill_length wf hge) h2 hg)

theorem digestBlocksL_while {G : σ → Prop} {R : σ → σ → Prop} (hbs : 0 < bs) (hk : ∀ s l t, BlocksOf bs l → (f s l).val = some t → G t → G s)
    (hb : SameFill k bs b b') (hi : Len input input') (hs : R s s')
    (hf : ∀ s s' l l', R s s' → SameShape bs l l' → While G G R (f s l) (f s' l')) :
    While (fun x => G x.2) (fun x => G x.2) (fun x y => SameFill k bs x.1 y.1 ∧ R x.2 y.2) (digestBlocksL k bs b input f s) (digestBlocksL k bs b' input' f s') := by
  obtain ⟨hp, wf, wf'⟩ := hb
  have rest : ∀ (d d' i i' : Bytes) (s s' : σ), d.length = bs → d'.length = bs → Len i i' → R s s' →
      While (fun x => G x.2) (fun x => G x.2) (fun x y => SameFill k bs x.1 y.1 ∧ R x.2 y.2) (restL k bs d i f s) (restL k bs d' i' f s') := by
    intro d d' i i' s s' hd hd' h hs
    have h0 : i.length = i'.length := h
    rw [restL_eq hbs hd, restL_eq hbs hd']
    refine While.shows (by rw [h0]) (While.bind (G := G) (G' := G) (Q := R) ?_ ?_ ?_ fun s s' _ _ hs =>
      While.shows (by rw [h0]) (While.pure fun _ _ => ⟨⟨by simp only [h0], (tail_wf hbs hd i).1, (tail_wf hbs hd' i').1⟩, hs⟩))
    · rw [← h0]
      split
      · exact While.pure fun _ _ => hs
      · exact hf _ _ _ _ hs (blocks_shape hbs h)
    · rintro a c - ⟨⟩ h; exact h
    · rintro a c - ⟨⟩ h; exact h
  have hi' : input.length = input'.length := hi
  by_cases h : BlockBuffer.fits k input.length (bs - b.pos) = true
  · have h' : BlockBuffer.fits k input'.length (bs - b'.pos) = true := by rw [← hi', ← hp]; exact h
    rw [digestBlocksL_fits wf h, digestBlocksL_fits wf' h']
    exact While.shows (by rw [hi', hp]) (While.pure fun _ _ => ⟨⟨by simp only [hi', hp], (fits_wf wf h).1, (fits_wf wf' h').1⟩, hs⟩)
  · have h' : ¬ BlockBuffer.fits k input'.length (bs - b'.pos) = true := by rw [← hi', ← hp]; exact h
    rw [digestBlocksL_over h, digestBlocksL_over h']
    refine While.shows rfl ?_
    by_cases h0 : b.pos = 0
    · rw [fillL_zero h0, fillL_zero (hp ▸ h0), shows_bind, shows_bind]
      exact While.shows rfl (by simpa only [pure_bind] using rest _ _ _ _ _ _ wf.1 wf'.1 hi hs)
    · have hge := over_le wf h
      have hge' := over_le wf' h'
      rw [fillL_pos wf h0 hge, fillL_pos wf' (hp ▸ h0) hge', shows_bind, shows_bind, bind_assoc, bind_assoc]
      refine While.shows (by rw [hp, hi']) (While.bind (hf _ _ _ _ hs (one_shape (fill_length wf hge) (fill_length wf' hge'))) ?_ ?_ fun s s' _ _ hs => ?_)
      · intro a c _ hc hg; rw [pure_bind] at hc; exact restL_keep (k := k) hbs hk (fill_length wf hge) hc hg
      · intro a c _ hc hg; rw [pure_bind] at hc; exact restL_keep (k := k) hbs hk (fill_length wf' hge') hc hg
      · simp only [pure_bind]
        exact rest _ _ _ _ _ _ (fill_length wf hge) (fill_length wf' hge') (by rw [Len, List.length_drop, List.length_drop, hi', hp]) hs

/-- As `digestBlocksL_rel`, for blocks of which something is shown. -/
theorem digestBlocksL_tells {R : σ → σ → Prop} (hbs : 0 < bs) (hb : SameFill k bs b b') (hi : Len input input') (hs : R s s')
    (hf : ∀ s s' l l', R s s' → SameShape bs l l' → Reads R (f s l) (f' s' l')) :
    Reads (fun x y => SameFill k bs x.1 y.1 ∧ R x.2 y.2) (digestBlocksL k bs b input f s) (digestBlocksL k bs b' input' f' s') := by
  obtain ⟨hp, wf, wf'⟩ := hb
  have rest : ∀ (d d' i i' : Bytes) (s s' : σ), d.length = bs → d'.length = bs → Len i i' → R s s' →
      Reads (fun x y => SameFill k bs x.1 y.1 ∧ R x.2 y.2) (restL k bs d i f s) (restL k bs d' i' f' s') := by
    intro d d' i i' s s' hd hd' h hs
    have h0 : i.length = i'.length := h
    rw [restL_eq hbs hd, restL_eq hbs hd']
    refine Reads.shows (by rw [h0]) (Reads.bind (Q := R) ?_ fun s s' _ _ hs =>
      Reads.shows (by rw [h0]) (Reads.pure ⟨⟨by simp only [h0], (tail_wf hbs hd i).1, (tail_wf hbs hd' i').1⟩, hs⟩))
    rw [← h0]
    split
    · exact Reads.pure hs
    · exact hf _ _ _ _ hs (blocks_shape hbs h)
  have hi' : input.length = input'.length := hi
  by_cases h : BlockBuffer.fits k input.length (bs - b.pos) = true
  · have h' : BlockBuffer.fits k input'.length (bs - b'.pos) = true := by rw [← hi', ← hp]; exact h
    rw [digestBlocksL_fits wf h, digestBlocksL_fits wf' h']
    exact Reads.shows (by rw [hi', hp]) (Reads.pure ⟨⟨by simp only [hi', hp], (fits_wf wf h).1, (fits_wf wf' h').1⟩, hs⟩)
  · have h' : ¬ BlockBuffer.fits k input'.length (bs - b'.pos) = true := by rw [← hi', ← hp]; exact h
    rw [digestBlocksL_over h, digestBlocksL_over h']
    refine Reads.shows rfl ?_
    by_cases h0 : b.pos = 0
    · rw [fillL_zero h0, fillL_zero (hp ▸ h0), shows_bind, shows_bind]
      exact Reads.shows rfl (by simpa only [pure_bind] using rest _ _ _ _ _ _ wf.1 wf'.1 hi hs)
    · have hge := over_le wf h
      have hge' := over_le wf' h'
      rw [fillL_pos wf h0 hge, fillL_pos wf' (hp ▸ h0) hge', shows_bind, shows_bind, bind_assoc, bind_assoc]
      refine Reads.shows (by rw [hp, hi']) (Reads.bind (hf _ _ _ _ hs (one_shape (fill_length wf hge) (fill_length wf' hge'))) fun s s' _ _ hs => ?_)
      simp only [pure_bind]
      exact rest _ _ _ _ _ _ (fill_length wf hge) (fill_length wf' hge') (by rw [Len, List.length_drop, List.length_drop, hi', hp]) hs

/-- As `digestBlocksL_tells`, with what is told of the blocks: `J s l s' l' t t'` of blocks `l` and `l'` that lead from `s` and `s'` to `t` and `t'`. -/
theorem digestBlocksL_story {R : σ → σ → Prop} {J : σ → List Bytes → σ → List Bytes → σ → σ → Prop} (hbs : 0 < bs) (hb : SameFill k bs b b') (hi : Len input input')
    (hs : R s s') (hnil : ∀ s s', J s [] s' [] s s')
    (happ : ∀ s s' l l' t t' m m' u u', J s l s' l' t t' → J t m t' m' u u' → J s (l ++ m) s' (l' ++ m') u u')
    (hf : ∀ s s' l l', R s s' → SameShape bs l l' → Reads (fun t t' => R t t' ∧ J s l s' l' t t') (f s l) (f s' l')) :
    Reads (fun x y => SameFill k bs x.1 y.1 ∧ R x.2 y.2 ∧ ∃ L L', BlocksOf bs L ∧ BlocksOf bs L' ∧ J s L s' L' x.2 y.2 ∧
      b.content ++ input = L.flatten ++ x.1.content ∧ b'.content ++ input' = L'.flatten ++ y.1.content)
      (digestBlocksL k bs b input f s) (digestBlocksL k bs b' input' f s') := by
  obtain ⟨hp, wf, wf'⟩ := hb
  have nilB : BlocksOf bs [] := fun c hc => absurd hc List.not_mem_nil
  have rest : ∀ (d d' i i' : Bytes) (s s' : σ), d.length = bs → d'.length = bs → Len i i' → R s s' →
      Reads (fun x y => SameFill k bs x.1 y.1 ∧ R x.2 y.2 ∧ ∃ L L', BlocksOf bs L ∧ BlocksOf bs L' ∧ J s L s' L' x.2 y.2 ∧
        i = L.flatten ++ x.1.content ∧ i' = L'.flatten ++ y.1.content) (restL k bs d i f s) (restL k bs d' i' f s') := by
    intro d d' i i' s s' hd hd' h hs
    have h0 : i.length = i'.length := h
    rw [restL_eq hbs hd, restL_eq hbs hd']
    refine Reads.shows (by rw [h0]) (Reads.bind (Q := fun x y => R x y ∧ J s (blocks bs (BlockBuffer.splitCount k bs i.length) i) s'
      (blocks bs (BlockBuffer.splitCount k bs i.length) i') x y) ?_ ?_)
    · rw [← h0]
      split
      · next hz => rw [hz]; exact Reads.pure ⟨hs, hnil _ _⟩
      · exact hf _ _ _ _ hs (blocks_shape hbs h)
    · rintro t t' - - ⟨hs, hj⟩
      have hsh := blocks_shape (k := k) hbs h
      refine Reads.shows (by rw [h0]) (Reads.pure ⟨⟨by simp only [h0], (tail_wf hbs hd i).1, (tail_wf hbs hd' i').1⟩, hs, _, _, hsh.2.1, hsh.2.2, hj, ?_, ?_⟩)
      · simp only; rw [(tail_wf hbs hd i).2, flatten_blocks, List.take_append_drop]
      · simp only; rw [(tail_wf hbs hd' i').2, flatten_blocks, h0, List.take_append_drop]
  have hi' : input.length = input'.length := hi
  by_cases h : BlockBuffer.fits k input.length (bs - b.pos) = true
  · have h' : BlockBuffer.fits k input'.length (bs - b'.pos) = true := by rw [← hi', ← hp]; exact h
    rw [digestBlocksL_fits wf h, digestBlocksL_fits wf' h']
    exact Reads.shows (by rw [hi', hp]) (Reads.pure ⟨⟨by simp only [hi', hp], (fits_wf wf h).1, (fits_wf wf' h').1⟩, hs, [], [], nilB, nilB, hnil _ _,
      (fits_wf wf h).2.symm, (fits_wf wf' h').2.symm⟩)
  · have h' : ¬ BlockBuffer.fits k input'.length (bs - b'.pos) = true := by rw [← hi', ← hp]; exact h
    rw [digestBlocksL_over h, digestBlocksL_over h']
    refine Reads.shows rfl ?_
    by_cases h0 : b.pos = 0
    · have hc : b.content = [] := by rw [BlockBuffer.content, h0]; rfl
      have hc' : b'.content = [] := by rw [BlockBuffer.content, ← hp, h0]; rfl
      rw [fillL_zero h0, fillL_zero (hp ▸ h0), shows_bind, shows_bind, hc, hc']
      exact Reads.shows rfl (by simpa only [pure_bind, List.nil_append] using rest _ _ _ _ _ _ wf.1 wf'.1 hi hs)
    · have hge := over_le wf h
      have hge' := over_le wf' h'
      rw [fillL_pos wf h0 hge, fillL_pos wf' (hp ▸ h0) hge', shows_bind, shows_bind, bind_assoc, bind_assoc]
      have h1 := one_shape (fill_length wf hge) (fill_length wf' hge')
      refine Reads.shows (by rw [hp, hi']) (Reads.bind (hf _ _ _ _ hs h1) ?_)
      rintro t t' - - ⟨hs, hj⟩
      simp only [pure_bind]
      refine (rest _ _ _ _ _ _ (fill_length wf hge) (fill_length wf' hge') (by rw [Len, List.length_drop, List.length_drop, hi', hp]) hs).mono ?_
      rintro x y - - ⟨q1, q2, L, L', l1, l2, j, c1, c2⟩
      refine ⟨q1, q2, _, _, List.forall_mem_append.mpr ⟨h1.2.1, l1⟩, List.forall_mem_append.mpr ⟨h1.2.2, l2⟩, happ _ _ _ _ _ _ _ _ _ _ hj j, ?_, ?_⟩
      · rw [List.flatten_append, List.append_assoc, ← c1, List.flatten_cons, List.flatten_nil, List.append_nil, List.append_assoc, List.take_append_drop]
      · rw [List.flatten_append, List.append_assoc, ← c2, List.flatten_cons, List.flatten_nil, List.append_nil, List.append_assoc, List.take_append_drop]
end

/-- Hashers whose observations depend on lengths only as long as the states are in `G`, which is never entered again. -/
structure Calm (c : CoreL τ ω) (R : τ → τ → Prop) (G : τ → Prop) (F : ω → Prop) : Prop where
  pos : 0 < c.bs
  init : Rel R c.init c.init
  upd : ∀ s s' l l', R s s' → SameShape c.bs l l' → While G G R (c.updateBlocks s l) (c.updateBlocks s' l')
  keep : ∀ s l t, BlocksOf c.bs l → (c.updateBlocks s l).val = some t → G t → G s
  fin : ∀ s s' b b', R s s' → SameFill c.kind c.bs b b' → While F F Any (c.finalize s b) (c.finalize s' b')
  last : ∀ s b r, b.WF c.kind c.bs → (c.finalize s b).val = some r → F r → G s

theorem updateL_wf {c : CoreL τ ω} (hp : 0 < c.bs) {x y : BlockBuffer × τ} {d : Bytes} (wf : x.1.WF c.kind c.bs) (h : (c.updateL x d).val = some y) :
    y.1.WF c.kind c.bs := by
  rw [CoreL.updateL, digestBlocksL_val hp wf d (g := fun s l => (c.updateBlocks s l).val) fun _ _ _ => rfl] at h
  obtain ⟨t, -, rfl⟩ := Option.map_eq_some_iff.mp h
  exact digestBlocks_wf hp wf d _ _

theorem foldL_wf {c : CoreL τ ω} (hp : 0 < c.bs) (l : List Bytes) {x y : BlockBuffer × τ} (wf : x.1.WF c.kind c.bs) (h : (l.foldlM c.updateL x).val = some y) :
    y.1.WF c.kind c.bs := by
  induction l generalizing x with
  | nil => cases h; exact wf
  | cons d l ih =>
    rw [List.foldlM_cons] at h
    obtain ⟨z, hz, h, -⟩ := bind_some h
    exact ih (updateL_wf hp wf hz) h

theorem Calm.foldL_keep {c : CoreL τ ω} {R : τ → τ → Prop} {G : τ → Prop} {F : ω → Prop} (h : Calm c R G F) (l : List Bytes) {x y : BlockBuffer × τ}
    (wf : x.1.WF c.kind c.bs) (hy : (l.foldlM c.updateL x).val = some y) (hg : G y.2) : G x.2 := by
  induction l generalizing x with
  | nil => cases hy; exact hg
  | cons d l ih =>
    rw [List.foldlM_cons] at hy
    obtain ⟨z, hz, hy, -⟩ := bind_some hy
    exact digestBlocksL_keep h.pos h.keep wf hz (ih (updateL_wf h.pos wf hz) hy)

theorem Calm.run {c : CoreL τ ω} {R : τ → τ → Prop} {G : τ → Prop} {F : ω → Prop} (h : Calm c R G F) {l l' : List Bytes}
    (hl : l.map List.length = l'.map List.length) : While F F Any (c.runL l) (c.runL l') := by
  have key : ∀ (l l' : List Bytes) (x x' : BlockBuffer × τ), Each Len l l' → SameFill c.kind c.bs x.1 x'.1 → R x.2 x'.2 →
      While (fun x => G x.2) (fun x => G x.2) (fun x y => SameFill c.kind c.bs x.1 y.1 ∧ R x.2 y.2) (l.foldlM c.updateL x) (l'.foldlM c.updateL x') := by
    intro l l' x x' he hb hs
    induction he generalizing x x' with
    | nil => exact While.pure fun _ _ => ⟨hb, hs⟩
    | @cons d d' l l' hd he ih =>
      rw [List.foldlM_cons, List.foldlM_cons]
      refine While.bind (digestBlocksL_while h.pos h.keep hb hd hs h.upd) ?_ ?_ fun y y' _ _ hy => ih y y' hy.1 hy.2
      · exact fun y z hy hz hg => h.foldL_keep l (updateL_wf h.pos hb.2.1 hy) hz hg
      · exact fun y z hy hz hg => h.foldL_keep l' (updateL_wf h.pos hb.2.2 hy) hz hg
  refine While.rel_bind h.init fun s s' _ _ hs => While.bind (key l l' _ _ (each_of_lengths hl) (SameFill.empty h.pos) hs) ?_ ?_ fun x y _ _ hx =>
    h.fin _ _ _ _ hx.2 hx.1
  · exact fun y r hy hr hF => h.last _ _ _ (foldL_wf h.pos l (BlockBuffer.WF.empty h.pos) hy) hr hF
  · exact fun y r hy hr hF => h.last _ _ _ (foldL_wf h.pos l' (BlockBuffer.WF.empty h.pos) hy) hr hF

/-- Hashers whose observations tell at least the lengths and that the states are related by `R`, the results by `Q`. -/
structure Partly (c : CoreL τ ω) (R : τ → τ → Prop) (Q : ω → ω → Prop) : Prop where
  pos : 0 < c.bs
  init : Rel R c.init c.init
  upd : ∀ s s' l l', R s s' → SameShape c.bs l l' → Reads R (c.updateBlocks s l) (c.updateBlocks s' l')
  fin : ∀ s s' b b', R s s' → SameFill c.kind c.bs b b' → Reads Q (c.finalize s b) (c.finalize s' b')

theorem Partly.run {c : CoreL τ ω} {R : τ → τ → Prop} {Q : ω → ω → Prop} (h : Partly c R Q) {l l' : List Bytes} (hl : l.length = l'.length) :
    Reads (fun x y => l.map List.length = l'.map List.length ∧ Q x y) (c.runL l) (c.runL l') := by
  have key : ∀ (l l' : List Bytes) (b b' : BlockBuffer) (s s' : τ), l.length = l'.length → SameFill c.kind c.bs b b' → R s s' →
      Reads (fun x y => l.map List.length = l'.map List.length ∧ SameFill c.kind c.bs x.1 y.1 ∧ R x.2 y.2) (l.foldlM c.updateL (b, s)) (l'.foldlM c.updateL (b', s')) := by
    intro l
    induction l with
    | nil =>
      intro l' b b' s s' hl hb hs
      cases l' with
      | nil => exact Reads.pure ⟨rfl, hb, hs⟩
      | cons => cases hl
    | cons d l ih =>
      intro l' b b' s s' hl hb hs
      cases l' with
      | nil => cases hl
      | cons d' l' =>
        rw [List.foldlM_cons, List.foldlM_cons]
        refine Reads.bind (Q := fun x y => d.length = d'.length ∧ SameFill c.kind c.bs x.1 y.1 ∧ R x.2 y.2)
          (Reads.of_obs (fun r r' e => digestBlocksL_len h.pos hb e) fun (e : d.length = d'.length) =>
            (digestBlocksL_tells h.pos hb e hs h.upd).mono fun _ _ _ _ hq => ⟨e, hq⟩) ?_
        rintro x y - - ⟨e, q1, q2⟩
        refine (ih l' x.1 y.1 x.2 y.2 (Nat.succ.inj hl) q1 q2).mono ?_
        rintro u v - - ⟨r1, r2⟩
        exact ⟨by rw [List.map_cons, List.map_cons, e, r1], r2⟩
  refine Reads.bind h.init.reads fun s s' _ _ hs => Reads.bind (key l l' _ _ s s' hl (SameFill.empty h.pos) hs) ?_
  rintro x y - - ⟨r1, r2, r3⟩
  exact (h.fin _ _ _ _ r3 r2).mono fun _ _ _ _ q => ⟨r1, q⟩

/-- Hashers whose observations tell the lengths and `J` of the blocks. -/
structure Story (c : CoreL τ ω) (R : τ → τ → Prop) (J : τ → List Bytes → τ → List Bytes → τ → τ → Prop) : Prop where
  pos : 0 < c.bs
  init : Rel (fun s s' => s = s' ∧ R s s') c.init c.init
  nil : ∀ s s', J s [] s' [] s s'
  app : ∀ s s' l l' t t' m m' u u', J s l s' l' t t' → J t m t' m' u u' → J s (l ++ m) s' (l' ++ m') u u'
  upd : ∀ s s' l l', R s s' → SameShape c.bs l l' → Reads (fun t t' => R t t' ∧ J s l s' l' t t') (c.updateBlocks s l) (c.updateBlocks s' l')

/-- Up to finalization. -/
theorem Story.run {c : CoreL τ ω} {R : τ → τ → Prop} {J : τ → List Bytes → τ → List Bytes → τ → τ → Prop} (h : Story c R J)
    {l l' : List Bytes} (hl : l.length = l'.length) {r r' : ω} (hr : (c.runL l).val = some r) (hr' : (c.runL l').val = some r')
    (ho : (c.runL l).obs = (c.runL l').obs) :
    ∃ s L L' t t' u u', c.init.val = some s ∧ BlocksOf c.bs L ∧ BlocksOf c.bs L' ∧ BlockBuffer.WF c.kind c.bs u ∧ BlockBuffer.WF c.kind c.bs u' ∧
      J s L s L' t t' ∧ l.flatten = L.flatten ++ u.content ∧ l'.flatten = L'.flatten ++ u'.content := by
  have key : ∀ (l l' : List Bytes) (b b' : BlockBuffer) (s s' : τ), l.length = l'.length → SameFill c.kind c.bs b b' → R s s' →
      Reads (fun x y => SameFill c.kind c.bs x.1 y.1 ∧ R x.2 y.2 ∧ ∃ L L', BlocksOf c.bs L ∧ BlocksOf c.bs L' ∧ J s L s' L' x.2 y.2 ∧
        b.content ++ l.flatten = L.flatten ++ x.1.content ∧ b'.content ++ l'.flatten = L'.flatten ++ y.1.content)
        (l.foldlM c.updateL (b, s)) (l'.foldlM c.updateL (b', s')) := by
    intro l
    induction l with
    | nil =>
      intro l' b b' s s' hl hb hs
      cases l' with
      | nil => exact Reads.pure ⟨hb, hs, [], [], fun c hc => absurd hc List.not_mem_nil, fun c hc => absurd hc List.not_mem_nil, h.nil _ _, by simp, by simp⟩
      | cons => cases hl
    | cons d l ih =>
      intro l' b b' s s' hl hb hs
      cases l' with
      | nil => cases hl
      | cons d' l' =>
        rw [List.foldlM_cons, List.foldlM_cons]
        refine Reads.of_obs (p := d.length = d'.length) (fun r r' e => ?_) fun hd => Reads.bind (digestBlocksL_story h.pos hb hd hs h.nil h.app h.upd) ?_
        · rw [obs_bind, obs_bind, List.append_assoc, List.append_assoc] at e
          exact digestBlocksL_len h.pos hb e
        rintro ⟨b1, s1⟩ ⟨b2, s2⟩ - - ⟨q1, q2, L, L', l1, l2, j, c1, c2⟩
        refine (ih l' b1 b2 s1 s2 (Nat.succ.inj hl) q1 q2).mono ?_
        rintro x y - - ⟨r1, r2, M, M', m1, m2, j', d1, d2⟩
        refine ⟨r1, r2, L ++ M, L' ++ M', List.forall_mem_append.mpr ⟨l1, m1⟩, List.forall_mem_append.mpr ⟨l2, m2⟩, h.app _ _ _ _ _ _ _ _ _ _ j j', ?_, ?_⟩
        · rw [List.flatten_cons, ← List.append_assoc, c1, List.append_assoc, d1, List.flatten_append, List.append_assoc]
        · rw [List.flatten_cons, ← List.append_assoc, c2, List.append_assoc, d2, List.flatten_append, List.append_assoc]
  obtain ⟨s, hs, hr, o1⟩ := bind_some hr
  obtain ⟨s', hs', hr', o2⟩ := bind_some hr'
  have e : s' = s := by rw [hs] at hs'; cases hs'; rfl
  subst e
  have hR : R s' s' := by
    have := h.init.2
    rw [hs] at this
    cases this with | some h => exact h.2
  obtain ⟨x, hx, hr, o3⟩ := bind_some hr
  obtain ⟨y, hy, hr', o4⟩ := bind_some hr'
  rw [CoreL.runL, CoreL.runL] at ho
  rw [o1, o2, o3, o4] at ho
  obtain ⟨-, q1, q2, L, L', l1, l2, j, c1, c2⟩ := key l l' _ _ s' s' hl (SameFill.empty h.pos) hR x y _ _ hx hy (List.append_cancel_left ho)
  simp only [BlockBuffer.content_empty, List.nil_append] at c1 c2
  exact ⟨s', L, L', x.2, y.2, x.1, y.1, hs, l1, l2, q1.2.1, q1.2.2, j, c1, c2⟩

end Hashes.Leak
