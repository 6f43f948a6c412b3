import Verif.Checked.World
import Verif.Proof.Resume
import Verif.Proof.Serialize
/- Programs on checked hashers against programs on the model's hashers. -/
namespace Hashes.Rs

/-- A checked hasher that does call by call what the model's hasher does, except that `update` panics unless `okU` and finalization panics
unless `okF`. `good` holds of the hashers a program can reach, `allowed` of the chunks it gives to `update`;
`ser` says whether there is serialization. -/
structure Steps {σ τ ω : Type} (cc : CoreC τ ω) (S : WrapC τ) (c : Core σ ω) (ser : Bool) (rep : σ → τ) (good : Hasher σ → Prop)
    (allowed : Bytes → Prop) (okU : Hasher σ → Bytes → Bool) (okF : Hasher σ → Bool) : Prop where
  kind : cc.kind = c.kind
  bs : cc.bs = c.bs
  init : cc.init = some (rep c.init)
  new : good c.new
  upd : ∀ h d, good h → allowed d → cc.updateC (rep h.core, h.buf) d =
    if okU h d then some (rep (c.update h d).core, (c.update h d).buf) else none
  updGood : ∀ h d, good h → okU h d = true → good (c.update h d)
  fin : ∀ h, good h → cc.finalize (rep h.core) h.buf = if okF h then some (c.finish h) else none
  reset : ∀ h, good h → c.reset h.core = c.init ∧ good (c.resetH h)
  save : ser = true → ∀ h, good h → S.save c.bs (rep h.core) h.buf = some (c.save h) ∧ (c.save h).length = c.serLen + (c.bs + 1)
  load : ser = true → ∀ raw : Bytes, raw.length = c.serLen + (c.bs + 1) → S.load c.kind c.bs raw = some ((c.load raw).map fun h => (rep h.core, h.buf))
  loadGood : ser = true → ∀ raw h, c.load raw = some h → good h

/-- No call of the program panics, judged along the model's run. -/
def fits {σ ω : Type} (c : Core σ ω) (okU : Hasher σ → Bytes → Bool) (okF : Hasher σ → Bool) (w : World σ) : List Op → Bool
  | [] => true
  | op :: ops => (match op with
      | .update h d => (w.vars h).all fun x => okU x d
      | .finalize h => (w.vars h).all okF
      | .finalizeReset h => (w.vars h).all okF
      | _ => true) && fits c okU okF (w.step c op).1 ops

/-- The worlds correspond. -/
structure Match {σ τ ω : Type} (c : Core σ ω) (rep : σ → τ) (good : Hasher σ → Prop) (w : World σ) (v : WorldC τ) : Prop where
  vars : ∀ i, v.vars i = (w.vars i).map fun h => (rep h.core, h.buf)
  slots : v.slots = w.slots
  good : ∀ i h, w.vars i = some h → good h
  len : ∀ t raw, w.slots t = some raw → raw.length = c.serLen + (c.bs + 1)

theorem Match.set {σ τ ω : Type} {c : Core σ ω} {rep : σ → τ} {good : Hasher σ → Prop} {w : World σ} {v : WorldC τ} (M : Match c rep good w v)
    (i : Nat) (o : Option (Hasher σ)) (ho : ∀ h, o = some h → good h) :
    Match c rep good { w with vars := setAt w.vars i o } { v with vars := setAt v.vars i (o.map fun h => (rep h.core, h.buf)) } where
  vars := fun j => by simp only [setAt]; split <;> [rfl; exact M.vars j]
  slots := M.slots
  good := fun j h hj => by
    simp only [setAt] at hj
    split at hj
    · exact ho h hj
    · exact M.good j h hj
  len := M.len

theorem Steps.run {σ τ ω : Type} {cc : CoreC τ ω} {S : WrapC τ} {c : Core σ ω} {rep : σ → τ} {good : Hasher σ → Prop}
    {okU : Hasher σ → Bytes → Bool} {okF : Hasher σ → Bool} {ser : Bool} {allowed : Bytes → Prop} (H : Steps cc S c ser rep good allowed okU okF) (ops : List Op)
    (hser : ser = true ∨ ∀ op ∈ ops, op.usesSave = false)
    (hops : ∀ i d, Op.update i d ∈ ops → allowed d) (w : World σ) (v : WorldC τ) (M : Match c rep good w v) :
    v.run cc S ops = if fits c okU okF w ops then some (World.run c w ops) else none := by
  induction ops generalizing w v with
  | nil => rfl
  | cons op ops ih =>
    -- a call that does not panic
    have go : ∀ (v' : WorldC τ) (o : Option ω), v.step cc S op = some (v', o) → Match c rep good (w.step c op).1 v' → (w.step c op).2 = o →
        v.run cc S (op :: ops) = if fits c okU okF (w.step c op).1 ops then some (World.run c w (op :: ops)) else none := by
      intro v' o h1 h2 h3
      rw [WorldC.run, h1, World.run]
      simp only [h3]
      show (WorldC.run cc S v' ops).bind _ = _
      rw [ih (hser.imp id fun h op hm => h op (List.mem_cons_of_mem _ hm)) (fun i d h => hops i d (List.mem_cons_of_mem _ h)) _ _ h2]
      split <;> [cases o <;> rfl; rfl]
    have stop : v.step cc S op = none → v.run cc S (op :: ops) = none := by
      intro h; rw [WorldC.run, h]; rfl
    have hr : ∀ x, good x → cc.resetC (rep x.core, x.buf) = some (rep (c.resetH x).core, (c.resetH x).buf) := by
      intro x hx
      show cc.init.bind _ = _
      rw [H.init]
      show some (rep c.init, x.buf.reset) = _
      rw [show (c.resetH x).core = c.reset x.core from rfl, (H.reset x hx).1]; rfl
    cases op with
    | new h =>
      simp only [fits, Bool.true_and]
      refine go _ none (by show cc.init.bind _ = _; rw [H.init, H.bs]; rfl) (M.set h (some c.new) ?_) rfl
      rintro _ ⟨⟩; exact H.new
    | clone s d =>
      simp only [fits, Bool.true_and]
      cases hx : w.vars s with
      | none =>
        have hv := M.vars s
        rw [hx] at hv
        exact go v none (by simp only [WorldC.step, hv]; rfl) (by simp only [World.step, hx]; exact M) (by simp only [World.step, hx])
      | some x =>
        have hv := M.vars s
        rw [hx] at hv
        refine go _ none (by simp only [WorldC.step, hv]; rfl) ?_ (by simp only [World.step, hx])
        simp only [World.step, hx]
        exact M.set d (some x) (by rintro _ ⟨⟩; exact M.good s x hx)
    | update h d =>
      simp only [fits]
      rcases Option.eq_none_or_eq_some (w.vars h) with hx | ⟨x, hx⟩
      · have hv := M.vars h
        rw [hx] at hv
        simp only [hx, Option.all_none, Bool.true_and]
        exact go v none (by simp only [WorldC.step, hv]; rfl) (by simp only [World.step, hx]; exact M) (by simp only [World.step, hx])
      · have hv := M.vars h
        rw [hx] at hv
        have hg := M.good h x hx
        have hu := H.upd x d hg (hops h d List.mem_cons_self)
        simp only [hx, Option.all_some]
        cases ho : okU x d with
        | false =>
          rw [ho] at hu
          simp only [Bool.false_and, Bool.false_eq_true, if_false] at hu ⊢
          exact stop (by simp only [WorldC.step, hv, Option.map_some]; rw [hu]; rfl)
        | true =>
          rw [ho] at hu
          simp only [Bool.true_and, if_true] at hu ⊢
          refine go _ none (by simp only [WorldC.step, hv, Option.map_some]; rw [hu]; rfl) ?_ (by simp only [World.step, hx])
          simp only [World.step, hx]
          exact M.set h (some (c.update x d)) (by rintro _ ⟨⟩; exact H.updGood x d hg ho)
    | reset h =>
      simp only [fits, Bool.true_and]
      cases hx : w.vars h with
      | none =>
        have hv := M.vars h
        rw [hx] at hv
        exact go v none (by simp only [WorldC.step, hv]; rfl) (by simp only [World.step, hx]; exact M) (by simp only [World.step, hx])
      | some x =>
        have hv := M.vars h
        rw [hx] at hv
        have hg := M.good h x hx
        refine go _ none (by simp only [WorldC.step, hv, Option.map_some]; rw [hr x hg]; rfl) ?_ (by simp only [World.step, hx])
        simp only [World.step, hx]
        exact M.set h (some (c.resetH x)) (by rintro _ ⟨⟩; exact (H.reset x hg).2)
    | finalizeReset h =>
      simp only [fits]
      rcases Option.eq_none_or_eq_some (w.vars h) with hx | ⟨x, hx⟩
      · have hv := M.vars h
        rw [hx] at hv
        simp only [hx, Option.all_none, Bool.true_and]
        exact go v none (by simp only [WorldC.step, hv]; rfl) (by simp only [World.step, hx]; exact M) (by simp only [World.step, hx])
      · have hv := M.vars h
        rw [hx] at hv
        have hg := M.good h x hx
        have hu := H.fin x hg
        simp only [hx, Option.all_some]
        cases ho : okF x with
        | false =>
          rw [ho] at hu
          simp only [Bool.false_and, Bool.false_eq_true, if_false] at hu ⊢
          exact stop (by simp only [WorldC.step, hv, Option.map_some]; rw [hu]; rfl)
        | true =>
          rw [ho] at hu
          simp only [Bool.true_and, if_true] at hu ⊢
          refine go _ (some (c.finish x)) (by simp only [WorldC.step, hv, Option.map_some]; rw [hu, hr x hg]; rfl) ?_ (by simp only [World.step, hx])
          simp only [World.step, hx]
          exact M.set h (some (c.resetH x)) (by rintro _ ⟨⟩; exact (H.reset x hg).2)
    | finalize h =>
      simp only [fits]
      rcases Option.eq_none_or_eq_some (w.vars h) with hx | ⟨x, hx⟩
      · have hv := M.vars h
        rw [hx] at hv
        simp only [hx, Option.all_none, Bool.true_and]
        exact go v none (by simp only [WorldC.step, hv]; rfl) (by simp only [World.step, hx]; exact M) (by simp only [World.step, hx])
      · have hv := M.vars h
        rw [hx] at hv
        have hg := M.good h x hx
        have hu := H.fin x hg
        simp only [hx, Option.all_some]
        cases ho : okF x with
        | false =>
          rw [ho] at hu
          simp only [Bool.false_and, Bool.false_eq_true, if_false] at hu ⊢
          exact stop (by simp only [WorldC.step, hv, Option.map_some]; rw [hu]; rfl)
        | true =>
          rw [ho] at hu
          simp only [Bool.true_and, if_true] at hu ⊢
          refine go _ (some (c.finish x)) (by simp only [WorldC.step, hv, Option.map_some]; rw [hu]; rfl) ?_ (by simp only [World.step, hx])
          simp only [World.step, hx]
          exact M.set h none (by rintro _ ⟨⟩)
    | save h t =>
      have hser : ser = true := hser.resolve_right fun h => nomatch h _ List.mem_cons_self
      simp only [fits, Bool.true_and]
      cases hx : w.vars h with
      | none =>
        have hv := M.vars h
        rw [hx] at hv
        exact go v none (by simp only [WorldC.step, hv]; rfl) (by simp only [World.step, hx]; exact M) (by simp only [World.step, hx])
      | some x =>
        have hv := M.vars h
        rw [hx] at hv
        have hs := H.save hser x (M.good h x hx)
        refine go _ none (by simp only [WorldC.step, hv, Option.map_some]; rw [H.bs, hs.1]; rfl) ?_ (by simp only [World.step, hx])
        simp only [World.step, hx]
        exact ⟨M.vars, by simp only [M.slots], M.good, fun u raw hu => by
          simp only [setAt] at hu
          split at hu
          · cases hu; exact hs.2
          · exact M.len u raw hu⟩
    | load t h =>
      have hser : ser = true := hser.resolve_right fun h => nomatch h _ List.mem_cons_self
      simp only [fits, Bool.true_and]
      cases hx : w.slots t with
      | none =>
        have hv : v.slots t = none := by rw [M.slots, hx]
        exact go v none (by simp only [WorldC.step, hv]; rfl) (by simp only [World.step, hx]; exact M) (by simp only [World.step, hx])
      | some raw =>
        have hv : v.slots t = some raw := by rw [M.slots, hx]
        have hl := H.load hser raw (M.len t raw hx)
        refine go _ none (by simp only [WorldC.step, hv]; rw [H.kind, H.bs, hl]; rfl) ?_ (by simp only [World.step, hx]; split <;> rfl)
        have hm := M.set h (c.load raw) (H.loadGood hser raw)
        simp only [World.step, hx]
        cases hc : c.load raw with
        | none => rw [hc] at hm; exact hm
        | some x => rw [hc] at hm; exact hm

/-- Hashers of which no call panics, as long as the calls are short. -/
theorem fits_true {σ ω : Type} (c : Core σ ω) {okU : Hasher σ → Bytes → Bool} {okF : Hasher σ → Bool} (hF : ∀ h, okF h = true) (ops : List Op)
    (hU : ∀ i d, Op.update i d ∈ ops → ∀ h, okU h d = true) (w : World σ) : fits c okU okF w ops = true := by
  induction ops generalizing w with
  | nil => rfl
  | cons op ops ih =>
    have h1 := ih fun i d h => hU i d (List.mem_cons_of_mem _ h)
    cases op with
    | update i d =>
      simp only [fits, h1, Bool.and_true]
      cases w.vars i with
      | none => rfl
      | some x => exact hU i d List.mem_cons_self x
    | finalize i => simp only [fits, h1, Bool.and_true]; cases w.vars i <;> [rfl; exact hF _]
    | finalizeReset i => simp only [fits, h1, Bool.and_true]; cases w.vars i <;> [rfl; exact hF _]
    | _ => simp only [fits, h1, Bool.and_true]

/-! ### One `update` -/

theorem updateC_eq {τ ω : Type} (cc : CoreC τ ω) (t : τ) (b : BlockBuffer) (d : Bytes) :
    cc.updateC (t, b) d = (cc.core.updates ⟨some t, b⟩ [d]).core.map fun s => (s, (cc.core.updates ⟨some t, b⟩ [d]).buf) := by
  show (b.digestBlocks cc.kind cc.bs d cc.core.updateBlocks (some t)).2.bind _ = (b.digestBlocks cc.kind cc.bs d cc.core.updateBlocks (some t)).2.map _
  cases (b.digestBlocks cc.kind cc.bs d cc.core.updateBlocks (some t)).2 <;> rfl

theorem save_length {σ ω : Type} {c : Core σ ω} {inv : σ → Prop} (Se : c.SerLawful inv) {h : Hasher σ} (hs : inv h.core)
    (wf : h.buf.WF c.kind c.bs) : (c.save h).length = c.serLen + (c.bs + 1) := by
  have hp : h.buf.pos ≤ c.bs := by
    have := wf.2
    generalize c.kind = k at *
    cases k with
    | eager => exact Nat.le_of_lt this
    | lazy => exact this
  rw [Core.save, List.length_append, Se.len _ hs, BlockBuffer.serialize, List.length_cons, List.length_append, wf.length_content,
    List.length_replicate]
  omega

/-- A core that never panics on calls of `short` numbers of blocks. -/
structure Total {σ τ ω : Type} (cc : CoreC τ ω) (c : Core σ ω) (rep : σ → τ) (inv : σ → Prop) (short : Nat → Bool) : Prop where
  kind : cc.kind = c.kind
  bs : cc.bs = c.bs
  init : cc.init = some (rep c.init)
  upd : ∀ s blks, inv s → (∀ b ∈ blks, b.length = c.bs) → short blks.length = true →
    cc.updateBlocks (rep s) blks = some (rep (c.updateBlocks s blks))
  fin : ∀ s buf, inv s → buf.WF c.kind c.bs → cc.finalize (rep s) buf = some (c.finalize s buf)

/-- A `Total` core makes a hasher of which no call panics. -/
theorem Total.update {σ τ ω : Type} {cc : CoreC τ ω} {c : Core σ ω} {rep : σ → τ} {inv : σ → Prop} {short : Nat → Bool}
    (T : Total cc c rep inv short) (L : c.Lawful inv) (h : Hasher σ) (hs : inv h.core) (wf : h.buf.WF c.kind c.bs) (d : Bytes)
    (hd : ∀ n ≤ max 1 (d.length / c.bs), short n = true) :
    cc.updateC (rep h.core, h.buf) d = some (rep (c.update h d).core, (c.update h d).buf) ∧
      inv (c.update h d).core ∧ (c.update h d).buf.WF c.kind c.bs := by
  have r := updates_rel_from L (d := cc.core) (fun s t => t = some (rep s) ∧ inv s) T.kind T.bs [d] h ⟨some (rep h.core), h.buf⟩ (by
    rintro x hx s t blks hbl hn ⟨rfl, hi⟩
    rw [List.mem_singleton] at hx
    subst hx
    exact ⟨T.upd s blks hi hbl (hd _ hn), L.inv_update s blks hbl hi⟩) wf rfl ⟨rfl, hs⟩
  refine ⟨?_, r.2.1.2, r.2.2⟩
  rw [updateC_eq, r.2.1.1, ← r.1]; rfl

/-- A hasher after one `update`, by what the counter does. -/
theorem Sim.update_book {w : Nat} {σ τ ω : Type} {cc : CoreC τ ω} {c : Core σ ω} {k : Count.Book w} {rep : σ → τ}
    {ctr : σ → BitVec w} {inv inv' : σ → Prop} (S : Sim cc c k rep ctr inv) (L : c.Lawful inv') (h : Hasher σ)
    (hs : inv h.core) (wf : h.buf.WF c.kind c.bs) (d : Bytes) :
    (c.update h d).buf = (k.core.update ⟨some (ctr h.core), h.buf⟩ d).buf ∧ (c.update h d).buf.WF c.kind c.bs ∧
    match (k.core.update ⟨some (ctr h.core), h.buf⟩ d).core with
    | none => cc.updateC (rep h.core, h.buf) d = none
    | some n => cc.updateC (rep h.core, h.buf) d = some (rep (c.update h d).core, (c.update h d).buf) ∧
        ctr (c.update h d).core = n ∧ inv (c.update h d).core := by
  have hk : k.core.kind = cc.core.kind := S.kind'.trans S.kind.symm
  have hb : k.core.bs = cc.core.bs := S.bs'.trans S.bs.symm
  have r := updates_rel_from L (d := both cc.core k.core) (fun s p => match p.2 with
      | none => p.1 = none
      | some n => p.1 = some (rep s) ∧ ctr s = n ∧ inv s) S.kind S.bs [d] h ⟨(some (rep h.core), some (ctr h.core)), h.buf⟩ (by
      rintro x - s ⟨t, o⟩ blks hbl - h
      cases o with
      | none => simp only at h; subst h; exact rfl
      | some n =>
        obtain ⟨h1, h2, h3⟩ := h
        simp only at h1; subst h1; subst h2
        have e : (both cc.core k.core).updateBlocks (some (rep s), some (ctr s)) blks =
          (cc.updateBlocks (rep s) blks, k.upd (ctr s) blks.length) := rfl
        rw [e, S.upd s blks h3 hbl]
        cases hu : k.upd (ctr s) blks.length with
        | none => exact rfl
        | some m => exact ⟨rfl, S.next s blks m h3 hbl hu⟩) wf rfl ⟨rfl, rfl, hs⟩
  have e := updates_both hk hb [d] ⟨some (rep h.core), h.buf⟩ ⟨some (ctr h.core), h.buf⟩ rfl
  rw [e.1] at r
  obtain ⟨r1, r2, wf'⟩ := r
  simp only at r1 r2
  refine ⟨r1.trans e.2, wf', ?_⟩
  rw [updateC_eq]
  rw [show k.core.updates ⟨some (ctr h.core), h.buf⟩ [d] = k.core.update ⟨some (ctr h.core), h.buf⟩ d from rfl] at r2
  cases hc : (k.core.update ⟨some (ctr h.core), h.buf⟩ d).core with
  | none => rw [hc] at r2; simp only at r2 ⊢; rw [r2]; rfl
  | some n =>
    rw [hc] at r2
    simp only at r2 ⊢
    rw [r2.1, ← r1]
    exact ⟨rfl, r2.2⟩

/-- The counter and the buffer of a hasher after one `update`. -/
theorem Sim.update {w : Nat} {σ τ ω : Type} {cc : CoreC τ ω} {c : Core σ ω} {bs : Nat} {f : Nat → Nat → Option Nat} {rep : σ → τ}
    {ctr : σ → BitVec w} {inv inv' : σ → Prop} (S : Sim cc c ⟨.eager, bs, Count.bump w, f⟩ rep ctr inv) (L : c.Lawful inv') (h : Hasher σ)
    (hs : inv h.core) (wf : h.buf.WF c.kind c.bs) (d : Bytes) :
    cc.updateC (rep h.core, h.buf) d =
      (if decide (c.bs * (ctr h.core).toNat + h.buf.pos + d.length < 2 ^ w * c.bs) then some (rep (c.update h d).core, (c.update h d).buf) else none) ∧
    (c.bs * (ctr h.core).toNat + h.buf.pos + d.length < 2 ^ w * c.bs →
      inv (c.update h d).core ∧ (c.update h d).buf.WF c.kind c.bs ∧
        c.bs * (ctr (c.update h d).core).toNat + (c.update h d).buf.pos = c.bs * (ctr h.core).toNat + h.buf.pos + d.length) := by
  obtain ⟨k, hk0⟩ : ∃ k : Count.Book w, k = ⟨.eager, bs, Count.bump w, f⟩ := ⟨_, rfl⟩
  rw [← hk0] at S
  have hke : k.kind = .eager := by rw [hk0]
  have hce : c.kind = .eager := by rw [← S.kind', hke]
  have hkb : k.bs = c.bs := S.bs'
  have hbs : bs = c.bs := by rw [← hkb, hk0]
  have hpos : 0 < c.bs := L.bs_pos
  have HL : k.Lawful := by rw [hk0]; exact Count.lawful_bump (by rw [hbs]; exact hpos)
  obtain ⟨r1, wf', r2⟩ := S.update_book L h hs wf d
  -- the counter as if a message of that many bytes had been hashed
  have hp : h.buf.pos < c.bs := by rw [hce] at wf; exact wf.2
  have hc := wf.length_content
  generalize hn : ctr h.core = n at *
  have hdiv : (n.toNat * k.bs + h.buf.pos) / k.bs = n.toNat := by
    rw [Nat.add_comm, Nat.add_mul_div_right _ _ HL.bs_pos, Nat.div_eq_of_lt (hkb ▸ hp), Nat.zero_add]
  have r0 : k.core.Rep ⟨some n, h.buf⟩ (List.replicate (n.toNat * k.bs) 0 ++ h.buf.content) := by
    have e : nFull k.core.kind k.core.bs (List.replicate (n.toNat * k.bs) (0 : Byte) ++ h.buf.content).length = n.toNat := by
      rw [show k.core.kind = .eager from hke, List.length_append, List.length_replicate, hc]
      exact hdiv
    refine ⟨by rw [show k.core.kind = c.kind from S.kind', show k.core.bs = c.bs from hkb]; exact wf, ?_, ?_⟩
    · rw [e]
      simp only [Count.Book.core, Option.bind_some, length_blocks]
      rw [hk0]
      exact (Count.upd_bump n).symm
    · rw [e, show k.core.bs = k.bs from rfl, List.drop_left' (List.length_replicate ..)]
  have r1' := r0.update HL.core d
  have hlen : (List.replicate (n.toNat * k.bs) (0 : Byte) ++ h.buf.content ++ d).length = c.bs * n.toNat + h.buf.pos + d.length := by
    simp only [List.length_append, List.length_replicate, hc]
    rw [hkb, Nat.mul_comm]
  generalize List.replicate (n.toNat * k.bs) (0 : Byte) ++ h.buf.content ++ d = m at r1' hlen
  have hnf : nFull k.core.kind k.core.bs m.length = m.length / c.bs := by
    rw [show k.core.kind = .eager from hke, show k.core.bs = c.bs from hkb]; rfl
  have hcore : (k.core.update ⟨some n, h.buf⟩ d).core = if m.length / c.bs < 2 ^ w then some (BitVec.ofNat w (m.length / c.bs)) else none := by
    rw [r1'.2.1, hnf]
    simp only [Count.Book.core, Option.bind_some, length_blocks]
    rw [hk0]
    exact Count.bump_zero _
  have hiff : m.length / c.bs < 2 ^ w ↔ m.length < 2 ^ w * c.bs := Nat.div_lt_iff_lt_mul hpos
  rw [← hlen]
  by_cases hlt : m.length < 2 ^ w * c.bs
  · rw [hcore, if_pos (hiff.2 hlt)] at r2
    obtain ⟨h1, h2, h3⟩ := r2
    rw [if_pos (decide_eq_true hlt)]
    refine ⟨h1, fun _ => ⟨h3, wf', ?_⟩⟩
    have hp' := r1'.1.length_content
    rw [r1'.2.2, List.length_drop, hnf, show k.core.bs = c.bs from hkb, ← r1] at hp'
    show c.bs * (ctr (c.update h d).core).toNat + (c.update h d).buf.pos = _
    rw [h2, BitVec.toNat_ofNat, Nat.mod_eq_of_lt (hiff.2 hlt), ← hp', Nat.mul_comm (m.length / c.bs)]
    exact Nat.add_sub_cancel' (Nat.mul_div_le _ _)
  · rw [hcore, if_neg (fun x => hlt (hiff.1 x))] at r2
    simp only at r2
    rw [if_neg (by rw [decide_eq_false hlt]; decide)]
    exact ⟨r2, fun x => absurd x hlt⟩

end Hashes.Rs
