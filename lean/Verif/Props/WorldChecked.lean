import Verif.Proof.World
import Verif.Props.SaveChecked
import Verif.Props.Streaming
/-
C71: whole programs in builds with overflow checks.  A program creates, updates, clones, resets, finalizes, saves and restores any number
of hashers in any order, and may restore from byte strings it was given.  `WorldC.run` is the program with Rust's run-time checks;
`none` is a panic.
-/
namespace Hashes.Spec

/-- The message length each hasher claims to have absorbed, and the length claimed by each stored byte string (`some none`: bytes that
are not a saved state). -/
structure Lens where
  vars : Nat → Option Nat
  slots : Nat → Option (Option Nat)

/-- What one call does to the claimed lengths. -/
def Lens.step (l : Lens) : Op → Lens
  | .new h => { l with vars := setAt l.vars h (some 0) }
  | .update h d => { l with vars := setAt l.vars h ((l.vars h).map (· + d.length)) }
  | .clone s d => if (l.vars s).isSome then { l with vars := setAt l.vars d (l.vars s) } else l
  | .reset h => { l with vars := setAt l.vars h ((l.vars h).map fun _ => 0) }
  | .finalizeReset h => { l with vars := setAt l.vars h ((l.vars h).map fun _ => 0) }
  | .finalize h => { l with vars := setAt l.vars h none }
  | .save h t => if (l.vars h).isSome then { l with slots := setAt l.slots t (some (l.vars h)) } else l
  | .load t h => match l.slots t with
    | some n => { l with vars := setAt l.vars h n }
    | none => l

/-- Every `update` leads to a length that satisfies `U`, and every finalization happens at a length that satisfies `F`. -/
def Lens.keeps (U F : Nat → Prop) (l : Lens) : List Op → Prop
  | [] => True
  | op :: ops => (match op with
      | .update h d => ∀ n, l.vars h = some n → U (n + d.length)
      | .finalize h => ∀ n, l.vars h = some n → F n
      | .finalizeReset h => ∀ n, l.vars h = some n → F n
      | _ => True) ∧ Lens.keeps U F (l.step op) ops

/-- Every `update` stays below `cap` bytes, and every finalization happens below `limit` bytes. -/
def Lens.fits (cap limit : Nat) (l : Lens) (ops : List Op) : Prop := l.keeps (· < cap) (· < limit) ops

end Hashes.Spec

namespace Hashes
open Rs

theorem Reached.inv' {σ ω : Type} {c : Core σ ω} {inv : σ → Prop} (L : c.Lawful inv) (hl : ∀ raw h, c.load raw = some h → inv h.core)
    {h : Hasher σ} (r : Reached c h) : inv h.core ∧ h.buf.WF c.kind c.bs := by
  induction r with
  | new => exact ⟨L.inv_init, (Core.Rep.new L).1⟩
  | update h x _ ih =>
    have := updates_rel_from L (d := c) (fun s t => s = t ∧ inv s) rfl rfl [x] h h
      (fun _ _ s t blks hb _ hr => ⟨congrArg (c.updateBlocks · blks) hr.1, L.inv_update s blks hb hr.2⟩) ih.2 rfl ⟨rfl, ih.1⟩
    exact ⟨this.2.1.2, this.2.2⟩
  | reset h _ ih => exact ⟨by show inv (c.reset h.core); rw [L.reset_eq _ ih.1]; exact L.inv_init, ih.2.reset L.bs_pos⟩
  | load raw h h' => exact ⟨hl raw h h', (load_parts h').2⟩

theorem saves_steps {σ τ ω : Type} {S : WrapC τ} {c : Core σ ω} {rep : σ → τ} (H : Saves S c rep) {cc : CoreC τ ω} (kind : cc.kind = c.kind)
    (bs : cc.bs = c.bs) (init : cc.init = some (rep c.init)) {allowed : Bytes → Prop} {okU : Hasher σ → Bytes → Bool} {okF : Hasher σ → Bool}
    (upd : ∀ h d, Reached c h → allowed d → cc.updateC (rep h.core, h.buf) d = if okU h d then some (rep (c.update h d).core, (c.update h d).buf) else none)
    (fin : ∀ h, Reached c h → cc.finalize (rep h.core) h.buf = if okF h then some (c.finish h) else none) :
    Steps cc S c true rep (Reached c) allowed okU okF := by
  obtain ⟨inv, L, Se, F⟩ := H.laws
  exact {
    kind := kind
    bs := bs
    init := init
    new := .new
    upd := upd
    updGood := fun h d hr _ => .update h d hr
    fin := fin
    reset := fun h hr => ⟨L.reset_eq _ (hr.inv L F).1, .reset h hr⟩
    save := fun _ h hr => ⟨C69_save H h hr, save_length Se (hr.inv L F).1 (hr.inv L F).2⟩
    load := fun _ => C69_load H
    loadGood := fun _ => .load }

theorem start_match {σ τ ω : Type} (c : Core σ ω) (rep : σ → τ) (slots : Nat → Option Bytes)
    (hl : ∀ t raw, slots t = some raw → raw.length = c.serLen + (c.bs + 1)) :
    Match c rep (Reached c) ⟨fun _ => none, slots⟩ ⟨fun _ => none, slots⟩ :=
  ⟨fun _ => rfl, rfl, fun _ _ h => (by cases h), hl⟩

/-! ### Hashers with a checked block counter -/

/-- The length a hasher claims to have absorbed: the blocks it says were hashed and the buffered bytes. -/
def claimed {w : Nat} {σ ω : Type} (c : Core σ ω) (ctr : σ → BitVec w) (h : Hasher σ) : Nat := c.bs * (ctr h.core).toNat + h.buf.pos

/-- The lengths follow the model's world, `R` relating a hasher to its length. -/
structure Claims {σ ω : Type} (c : Core σ ω) (R : Hasher σ → Nat → Prop) (x : World σ) (l : Spec.Lens) : Prop where
  vars : ∀ i, Option.Rel R (x.vars i) (l.vars i)
  slots : ∀ t, Option.Rel (fun raw n => Option.Rel R (c.load raw) n) (x.slots t) (l.slots t)

theorem Claims.set {σ ω : Type} {c : Core σ ω} {R : Hasher σ → Nat → Prop} {x : World σ} {l : Spec.Lens} (M : Claims c R x l) (i : Nat)
    {o : Option (Hasher σ)} {n : Option Nat} (hn : Option.Rel R o n) :
    Claims c R { x with vars := setAt x.vars i o } { l with vars := setAt l.vars i n } where
  vars := fun j => by simp only [setAt]; split <;> [exact hn; exact M.vars j]
  slots := M.slots

theorem setAt_same {α : Type} {f : Nat → Option α} {i : Nat} {v : Option α} (h : f i = v) : setAt f i v = f := by
  funext j; unfold setAt; split <;> [(next e => rw [e, h]); rfl]

theorem rel_cases {α β : Type} {R : α → β → Prop} {a : Option α} {b : Option β} (h : Option.Rel R a b) :
    (a = none ∧ b = none) ∨ ∃ x y, a = some x ∧ b = some y ∧ R x y := by
  cases h with
  | none => exact .inl ⟨rfl, rfl⟩
  | some h => exact .inr ⟨_, _, rfl, rfl, h⟩

/-- Which calls panic, by lengths alone. -/
theorem fits_keeps {σ ω : Type} {c : Core σ ω} {R : Hasher σ → Nat → Prop} {okU : Hasher σ → Bytes → Bool} {okF : Hasher σ → Bool} {U F : Nat → Prop}
    (new : R c.new 0) (hU : ∀ h n d, R h n → (okU h d = true ↔ U (n + d.length)))
    (upd : ∀ h n d, R h n → okU h d = true → R (c.update h d) (n + d.length)) (hF : ∀ h n, R h n → (okF h = true ↔ F n))
    (reset : ∀ h n, R h n → R (c.resetH h) 0) (ops : List Op)
    (save : (∀ h n, R h n → ∃ h', c.load (c.save h) = some h' ∧ R h' n) ∨ ∀ op ∈ ops, op.usesSave = false) (x : World σ) (l : Spec.Lens)
    (M : Claims c R x l) : fits c okU okF x ops = true ↔ l.keeps U F ops := by
  induction ops generalizing x l with
  | nil => exact ⟨fun _ => trivial, fun _ => rfl⟩
  | cons op ops ih =>
    have ih := ih (save.imp id fun h op hm => h op (List.mem_cons_of_mem _ hm))
    cases op with
    | new h =>
      simp only [fits, Spec.Lens.keeps, Bool.true_and, true_and]
      exact ih _ _ (M.set h (.some new))
    | update h d =>
      simp only [fits, Spec.Lens.keeps, Bool.and_eq_true]
      rcases rel_cases (M.vars h) with ⟨hx, hv⟩ | ⟨y, n, hx, hv, r⟩
      · have e : l.step (.update h d) = l := by
          show { l with vars := setAt l.vars h ((l.vars h).map (· + d.length)) } = l
          rw [hv, Option.map_none, setAt_same hv]
        simp only [World.step, hx, hv, Option.all_none, e, reduceCtorEq, false_implies, implies_true, true_and]
        exact ih x l M
      · simp only [World.step, hx, hv, Option.all_some, Option.map_some, Option.some.injEq, forall_eq', Spec.Lens.step]
        rw [← hU y n d r]
        exact and_congr_right fun hlt => ih _ _ (M.set h (.some (upd y n d r hlt)))
    | clone s d =>
      simp only [fits, Spec.Lens.keeps, Bool.true_and, true_and]
      rcases rel_cases (M.vars s) with ⟨hx, hv⟩ | ⟨y, n, hx, hv, r⟩
      · simp only [World.step, hx, Spec.Lens.step, hv, Option.isSome_none, Bool.false_eq_true, if_false]
        exact ih x l M
      · simp only [World.step, hx, Spec.Lens.step, hv, Option.isSome_some, if_true]
        exact ih _ _ (M.set d (.some r))
    | reset h =>
      simp only [fits, Spec.Lens.keeps, Bool.true_and, true_and]
      rcases rel_cases (M.vars h) with ⟨hx, hv⟩ | ⟨y, n, hx, hv, r⟩
      · have e : l.step (.reset h) = l := by
          show { l with vars := setAt l.vars h ((l.vars h).map fun _ => 0) } = l
          rw [hv, Option.map_none, setAt_same hv]
        simp only [World.step, hx, e]
        exact ih x l M
      · simp only [World.step, hx, Spec.Lens.step, hv, Option.map_some]
        exact ih _ _ (M.set h (.some (reset y n r)))
    | finalizeReset h =>
      simp only [fits, Spec.Lens.keeps, Bool.and_eq_true]
      rcases rel_cases (M.vars h) with ⟨hx, hv⟩ | ⟨y, n, hx, hv, r⟩
      · have e : l.step (.finalizeReset h) = l := by
          show { l with vars := setAt l.vars h ((l.vars h).map fun _ => 0) } = l
          rw [hv, Option.map_none, setAt_same hv]
        simp only [World.step, hx, hv, Option.all_none, e, reduceCtorEq, false_implies, implies_true, true_and]
        exact ih x l M
      · simp only [World.step, hx, hv, Option.all_some, Option.map_some, Option.some.injEq, forall_eq', Spec.Lens.step]
        rw [← hF y n r]
        exact and_congr_right fun _ => ih _ _ (M.set h (.some (reset y n r)))
    | finalize h =>
      simp only [fits, Spec.Lens.keeps, Bool.and_eq_true]
      rcases rel_cases (M.vars h) with ⟨hx, hv⟩ | ⟨y, n, hx, hv, r⟩
      · have e : l.step (.finalize h) = l := by
          show { l with vars := setAt l.vars h none } = l
          rw [setAt_same hv]
        simp only [World.step, hx, hv, Option.all_none, e, reduceCtorEq, false_implies, implies_true, true_and]
        exact ih x l M
      · simp only [World.step, hx, hv, Option.all_some, Option.some.injEq, forall_eq', Spec.Lens.step]
        rw [← hF y n r]
        exact and_congr_right fun _ => ih _ _ (M.set h .none)
    | save h t =>
      have save := save.resolve_right fun h => nomatch h _ List.mem_cons_self
      simp only [fits, Spec.Lens.keeps, Bool.true_and, true_and]
      rcases rel_cases (M.vars h) with ⟨hx, hv⟩ | ⟨y, n, hx, hv, r⟩
      · simp only [World.step, hx, Spec.Lens.step, hv, Option.isSome_none, Bool.false_eq_true, if_false]
        exact ih x l M
      · simp only [World.step, hx, Spec.Lens.step, hv, Option.isSome_some, if_true]
        refine ih _ _ ⟨M.vars, fun u => ?_⟩
        simp only [setAt]
        split
        · obtain ⟨y', hs, r'⟩ := save y n r
          exact .some (by rw [hs]; exact .some r')
        · exact M.slots u
    | load t h =>
      simp only [fits, Spec.Lens.keeps, Bool.true_and, true_and]
      rcases rel_cases (M.slots t) with ⟨hx, hv⟩ | ⟨raw, n, hx, hv, r⟩
      · simp only [World.step, hx, Spec.Lens.step, hv]
        exact ih x l M
      · have hm := M.set h r
        simp only [Spec.Lens.step, hv]
        cases hc : c.load raw with
        | none => rw [hc] at hm; simp only [World.step, hx, hc]; exact ih _ _ hm
        | some y => rw [hc] at hm; simp only [World.step, hx, hc]; exact ih _ _ hm

theorem fits_lens {w limit : Nat} {σ τ ω : Type} {S : WrapC τ} {c : Core σ ω} {rep : σ → τ} {ctr : σ → BitVec w}
    (H : Saves S c rep) (ctr0 : ctr c.init = 0)
    (upd : ∀ h d, Reached c h → claimed c ctr h + d.length < 2 ^ w * c.bs → claimed c ctr (c.update h d) = claimed c ctr h + d.length)
    (slots : Nat → Option Bytes) (ops : List Op) :
    fits c (fun h d => decide (claimed c ctr h + d.length < 2 ^ w * c.bs)) (fun h => decide (claimed c ctr h < limit)) ⟨fun _ => none, slots⟩ ops = true ↔
      Spec.Lens.fits (2 ^ w * c.bs) limit ⟨fun _ => none, fun t => (slots t).map fun raw => (c.load raw).map (claimed c ctr)⟩ ops := by
  obtain ⟨inv, L, Se, F⟩ := H.laws
  refine fits_keeps (R := fun h n => Reached c h ∧ claimed c ctr h = n) ⟨.new, ?_⟩ ?_ ?_ ?_ ?_ ops (.inl ?_) _ _ ⟨fun _ => .none, fun t => ?_⟩
  · show c.bs * (ctr c.init).toNat + 0 = 0
    rw [ctr0]; simp
  · rintro h _ d ⟨-, rfl⟩; exact decide_eq_true_iff
  · rintro h _ d ⟨r, rfl⟩ hu; exact ⟨.update h d r, upd h d r (of_decide_eq_true hu)⟩
  · rintro h _ ⟨-, rfl⟩; exact decide_eq_true_iff
  · rintro h _ ⟨r, rfl⟩
    refine ⟨.reset h r, ?_⟩
    show c.bs * (ctr (c.reset h.core)).toNat + 0 = 0
    rw [L.reset_eq _ (r.inv L F).1, ctr0]; simp
  · rintro y _ ⟨r, rfl⟩
    have hi := r.inv L F
    obtain ⟨b', hb, wf', hc'⟩ := BlockBuffer.deserialize_serialize Se.bs_le hi.2
    have hs : c.load (c.save y) = some ⟨y.core, b'⟩ := by
      unfold Core.load Core.save
      rw [List.take_left' (Se.len _ hi.1), List.drop_left' (Se.len _ hi.1), Se.round _ hi.1, hb]
    refine ⟨_, hs, .load _ _ hs, ?_⟩
    show c.bs * (ctr y.core).toNat + b'.pos = c.bs * (ctr y.core).toNat + y.buf.pos
    rw [Count.pos_of_content wf' hi.2 hc']
  · show Option.Rel _ (slots t) ((slots t).map _)
    cases slots t with
    | none => exact .none
    | some raw =>
      refine .some ?_
      rcases Option.eq_none_or_eq_some (c.load raw) with h | ⟨y, h⟩
      · show Option.Rel _ (c.load raw) ((c.load raw).map _)
        rw [h]; exact .none
      · show Option.Rel _ (c.load raw) ((c.load raw).map _)
        rw [h]; exact .some ⟨.load raw y h, rfl⟩

open Classical in
theorem counted_world {w limit : Nat} {σ τ ω : Type} {S : WrapC τ} {cc : CoreC τ ω} {c : Core σ ω} {rep : σ → τ} {ctr : σ → BitVec w}
    (H : Saves S c rep) (kind : cc.kind = c.kind) (bs : cc.bs = c.bs) (init : cc.init = some (rep c.init)) (ctr0 : ctr c.init = 0)
    (upd : ∀ h d, Reached c h → cc.updateC (rep h.core, h.buf) d =
        (if decide (claimed c ctr h + d.length < 2 ^ w * c.bs) then some (rep (c.update h d).core, (c.update h d).buf) else none) ∧
      (claimed c ctr h + d.length < 2 ^ w * c.bs → claimed c ctr (c.update h d) = claimed c ctr h + d.length))
    (fin : ∀ h, Reached c h → cc.finalize (rep h.core) h.buf = if decide (claimed c ctr h < limit) then some (c.finish h) else none)
    (slots : Nat → Option Bytes) (hl : ∀ t raw, slots t = some raw → raw.length = c.serLen + (c.bs + 1)) (ops : List Op) :
    WorldC.run cc S ⟨fun _ => none, slots⟩ ops =
      if Spec.Lens.fits (2 ^ w * c.bs) limit ⟨fun _ => none, fun t => (slots t).map fun raw => (c.load raw).map (claimed c ctr)⟩ ops
      then some (World.run c ⟨fun _ => none, slots⟩ ops) else none := by
  have st : Steps cc S c true rep (Reached c) (fun _ => True) _ _ := saves_steps H kind bs init
    (okU := fun h d => decide (claimed c ctr h + d.length < 2 ^ w * c.bs)) (okF := fun h => decide (claimed c ctr h < limit))
    (fun h d hr _ => (upd h d hr).1) fin
  rw [st.run ops (.inl rfl) (fun _ _ _ => trivial) _ _ (start_match c rep slots hl)]
  exact if_congr (fits_lens H ctr0 (fun h d hr => (upd h d hr).2) slots ops) rfl rfl

open Classical in
/-- C71. Any program over any number of hashers of these algorithms that starts with arbitrary stored byte strings of the right length,
forged ones included: it panics exactly when some `update` takes the claimed length to `2^w` blocks, `w` being the width of the counter,
or some finalization happens at or above the limit of C67. Otherwise it emits what it emits without overflow checks. -/
theorem C71_counted {w limit : Nat} {σ τ : Type} {S : WrapC τ} {cc : CoreC τ Bytes} {c : Core σ Bytes} {rep : σ → τ} {ctr : σ → BitVec w}
    (H : Saves S c rep) (K : CountsBlocks cc c rep ctr limit) (slots : Nat → Option Bytes)
    (hl : ∀ t raw, slots t = some raw → raw.length = c.serLen + (c.bs + 1)) (ops : List Op) :
    WorldC.run cc S ⟨fun _ => none, slots⟩ ops =
      if Spec.Lens.fits (2 ^ w * c.bs) limit ⟨fun _ => none, fun t => (slots t).map fun raw => (c.load raw).map (claimed c ctr)⟩ ops
      then some (World.run c ⟨fun _ => none, slots⟩ ops) else none := by
  obtain ⟨inv, L, Se, F⟩ := H.laws
  obtain ⟨_, _, _, Si, Kc, ⟨_, L', _⟩, ctr0, init, -⟩ := K.laws
  refine counted_world H Si.kind Si.bs init ctr0 (fun h d hr => ?_) (fun h hr => ?_) slots hl ops
  · have := Si.update L' h trivial (hr.inv L F).2 d
    exact ⟨this.1, fun hlt => (this.2 hlt).2.2⟩
  · have := Si.resume_limit Kc L' h trivial (hr.inv L F).2 []
    simp only [List.flatten_nil, List.length_nil, Nat.add_zero] at this
    refine Eq.trans this ?_
    unfold claimed
    simp only [decide_eq_true_eq]; rfl

open Classical in
/-- C71 for programs that start with nothing: the digests of the messages logged by C03. -/
theorem C71_fresh {w limit : Nat} {σ τ : Type} {S : WrapC τ} {cc : CoreC τ Bytes} {c : Core σ Bytes} {rep : σ → τ} {ctr : σ → BitVec w}
    (H : Saves S c rep) (K : CountsBlocks cc c rep ctr limit) (ops : List Op) :
    WorldC.run cc S ⟨fun _ => none, fun _ => none⟩ ops =
      if Spec.Lens.fits (2 ^ w * c.bs) limit ⟨fun _ => none, fun _ => none⟩ ops then some ((Spec.messagesOf ops).map c.digest) else none := by
  obtain ⟨inv, L, Se, F⟩ := H.laws
  rw [C71_counted H K _ (fun _ _ h => by cases h), ← C03_history c L Se ops]
  rfl

/-! ### Hashers without a counter that can overflow -/

theorem plain_total {σ τ ω : Type} {kind : BufKind} {bs : Nat} {i : Option τ} {comp : τ → Bytes → Option τ} {out : τ → BlockBuffer → Option ω}
    {c : Core σ ω} {inv : σ → Prop} (L : c.Lawful inv) (rep : σ → τ) (g : σ → Bytes → σ) (hk : kind = c.kind) (hb : bs = c.bs)
    (hi : i = some (rep c.init)) (hu : ∀ s blks, c.updateBlocks s blks = blks.foldl g s)
    (step : ∀ s b, inv s → b.length = c.bs → comp (rep s) b = some (rep (g s b)))
    (fin : ∀ s buf, inv s → buf.WF c.kind c.bs → out (rep s) buf = some (c.finalize s buf)) :
    Total (plainC kind bs i comp out) c rep inv fun _ => true where
  kind := hk
  bs := hb
  init := hi
  upd := fun s blks hs hbl _ => by
    rw [hu]
    refine foldlM_image rep inv g (fun s b hs hb => ⟨step s b hs hb, ?_⟩) blks hbl s hs
    have := L.inv_update s [b] (by simpa using hb) hs
    rwa [hu] at this
  fin := fin

section
attribute [local irreducible] Md2.compress Md2.compressC Md2.finalizeC Shabal.compress Shabal.compressC Shabal.finalizeC Shabal.finalizeFull
theorem Uncounted.laws {σ τ : Type} {cc : CoreC τ Bytes} {c : Core σ Bytes} {rep : σ → τ} (H : Uncounted cc c rep) :
    ∃ inv, c.Lawful inv ∧ Total cc c rep inv (fun _ => true) ∧ ∀ raw h, c.load raw = some h → inv h.core := by
  have sha3 {f : Sha3.Lanes → Sha3.Lanes} (hf : Sha3.Perm f) {rate : Nat} (h0 : 0 < rate) (h8 : rate % 8 = 0) {N : Nat} (hN : N ≤ 200) (pad : Byte) :
      ∃ inv, (Sha3.fixed f N rate pad).Lawful inv ∧ Total (Sha3.fixedC f N rate pad) (Sha3.fixed f N rate pad) id inv (fun _ => true) ∧
        ∀ raw h, (Sha3.fixed f N rate pad).load raw = some h → inv h.core :=
    ⟨_, Sha3.fixed_lawful hf h0 N pad, plain_total (c := Sha3.fixed f N rate pad) (Sha3.fixed_lawful hf h0 N pad) id
        (Sha3.absorbBlock f) rfl rfl rfl (fun _ _ => rfl) (fun s b hs hb => Sha3.absorbBlockC_eq f s (by rw [hb]; exact h8))
        (fun s _ hs wf => by
          refine (Sha3.finalizeC_eq f h8 pad wf.1 wf.2 (out := List.replicate N 0) ?_).trans ?_
          · rw [id_eq, Sha3.length_absorbBlock hf hs, List.length_replicate]; exact hN
          · rw [List.length_replicate]; rfl), fun raw h hl => Sha3.lanes_load (load_parts hl).1⟩
  cases H with
  | md2 =>
    exact ⟨_, Md2.lawful, plain_total (c := Md2.md2) Md2.lawful id Md2.compress rfl rfl rfl (fun _ _ => rfl)
      (fun _ _ hs hb => Md2.compressC_eq hs.1 hs.2 hb) (fun _ _ hs wf => Md2.finalizeC_eq hs.1 hs.2 wf),
      fun raw h hl => Md2.shape_load (load_parts hl).1⟩
  | md4 =>
    exact ⟨_, Md4.lawful, ⟨rfl, rfl, rfl, fun s blks _ hb _ => Md4.sim.upd s blks trivial hb, fun s buf _ wf => Md4.sim.fin s buf trivial wf⟩,
      fun _ _ _ => trivial⟩
  | md5 =>
    exact ⟨_, Md5.lawful, ⟨rfl, rfl, rfl, fun s blks _ hb _ => Md5.sim.upd s blks trivial hb, fun s buf _ wf => Md5.sim.fin s buf trivial wf⟩,
      fun _ _ _ => trivial⟩
  | streebog N _ hc =>
    obtain ⟨hN, s0, h0, rfl⟩ := VarCore.ct_inv hc
    have h0 : Streebog.new N = some s0 := h0
    exact ⟨_, Streebog.lawful.ct N s0, plain_total (c := Streebog.varCore.ctWith N s0) (Streebog.lawful.ct N s0)
      (fun s => (s.h.toList, s.n.toList, s.sigma.toList)) (fun s b => Streebog.compress s b 64) rfl rfl (by rw [h0]; rfl) (fun _ _ => rfl)
      (fun s _ _ hb => Streebog.compressC_eq s hb (by decide))
      (fun s _ _ wf => bind_ok (Streebog.finalizeC_eq s wf (List.length_replicate ..))
        (truncateC_eq .right (by
          show N ≤ (Streebog.toBytes _).length
          rw [Streebog.toBytes, length_bytesOfWordsLE]; exact hN))), fun _ _ _ => trivial⟩
  | shabal N _ hc =>
    obtain ⟨hN, s0, h0, rfl⟩ := VarCore.ct_inv hc
    have h0 : Shabal.new N = some s0 := h0
    exact ⟨_, Shabal.lawful.ct N s0, plain_total (c := Shabal.varCore.ctWith N s0) (Shabal.lawful.ct N s0) Shabal.State.toC Shabal.compress
      rfl rfl (by rw [h0]; rfl) (fun _ _ => rfl) (fun s _ _ hb => Shabal.compressC_eq s hb)
      (fun s _ _ wf => bind_ok (Shabal.finalizeC_eq s wf (List.length_replicate ..))
        (truncateC_eq .right (by rw [Shabal.length_finalizeFull]; exact hN))), fun _ _ _ => trivial⟩
  | keccak224 => exact sha3 Sha3.perm24 (by decide) rfl (by decide) _
  | keccak256 => exact sha3 Sha3.perm24 (by decide) rfl (by decide) _
  | keccak384 => exact sha3 Sha3.perm24 (by decide) rfl (by decide) _
  | keccak512 => exact sha3 Sha3.perm24 (by decide) rfl (by decide) _
  | keccak256Full => exact sha3 Sha3.perm24 (by decide) rfl (by decide) _
  | sha3_224 => exact sha3 Sha3.perm24 (by decide) rfl (by decide) _
  | sha3_256 => exact sha3 Sha3.perm24 (by decide) rfl (by decide) _
  | sha3_384 => exact sha3 Sha3.perm24 (by decide) rfl (by decide) _
  | sha3_512 => exact sha3 Sha3.perm24 (by decide) rfl (by decide) _
end

theorem total_world {σ τ ω : Type} {S : WrapC τ} {cc : CoreC τ ω} {c : Core σ ω} {rep : σ → τ} (H : Saves S c rep) {inv : σ → Prop}
    (L : c.Lawful inv) {short : Nat → Bool} (T : Total cc c rep inv short) (load : ∀ raw h, c.load raw = some h → inv h.core)
    (slots : Nat → Option Bytes) (hl : ∀ t raw, slots t = some raw → raw.length = c.serLen + (c.bs + 1)) (ops : List Op)
    (hops : ∀ i d, Op.update i d ∈ ops → ∀ n ≤ max 1 (d.length / c.bs), short n = true) :
    WorldC.run cc S ⟨fun _ => none, slots⟩ ops = some (World.run c ⟨fun _ => none, slots⟩ ops) := by
  have st : Steps cc S c true rep (Reached c) (fun d => ∀ n ≤ max 1 (d.length / c.bs), short n = true) (fun _ _ => true) (fun _ => true) :=
    saves_steps H T.kind T.bs T.init (fun h d hr hd => (T.update L h (hr.inv' L load).1 (hr.inv' L load).2 d hd).1)
      (fun h hr => T.fin _ _ (hr.inv' L load).1 (hr.inv' L load).2)
  rw [st.run ops (.inl rfl) hops _ _ (start_match c rep slots hl), fits_true c (fun _ => rfl) ops (fun _ _ _ _ => rfl)]
  rfl

/-- C71. Programs over these hashers never panic. -/
theorem C71_uncounted {σ τ : Type} {S : WrapC τ} {cc : CoreC τ Bytes} {c : Core σ Bytes} {rep : σ → τ} (H : Saves S c rep)
    (K : Uncounted cc c rep) (slots : Nat → Option Bytes) (hl : ∀ t raw, slots t = some raw → raw.length = c.serLen + (c.bs + 1))
    (ops : List Op) : WorldC.run cc S ⟨fun _ => none, slots⟩ ops = some (World.run c ⟨fun _ => none, slots⟩ ops) := by
  obtain ⟨inv, L, T, load⟩ := K.laws
  exact total_world H L T load slots hl ops fun _ _ _ _ _ => rfl

/-- C71 for programs that start with nothing. -/
theorem C71_uncounted_fresh {σ τ : Type} {S : WrapC τ} {cc : CoreC τ Bytes} {c : Core σ Bytes} {rep : σ → τ} (H : Saves S c rep)
    (K : Uncounted cc c rep) (ops : List Op) :
    WorldC.run cc S ⟨fun _ => none, fun _ => none⟩ ops = some ((Spec.messagesOf ops).map c.digest) := by
  obtain ⟨inv, L, Se, F⟩ := H.laws
  rw [C71_uncounted H K _ (fun _ _ h => by cases h), ← C03_history c L Se ops]
  rfl

/-- C71 (GOST R 34.11-94): every table of permutation rows, chunks that fit in the address space. -/
theorem C71_gost94 (sb : List (List Byte)) (hb : Gost94.IsBox sb) (h0 : Bytes) (hh : h0.length = 32) (slots : Nat → Option Bytes)
    (hl : ∀ t raw, slots t = some raw → raw.length = (Gost94.gost94 sb h0).serLen + ((Gost94.gost94 sb h0).bs + 1)) (ops : List Op)
    (hops : ∀ i d, Op.update i d ∈ ops → d.length < 2 ^ 64) :
    WorldC.run (Gost94.gost94C sb h0) Gost94.saveC.plain ⟨fun _ => none, slots⟩ ops =
      some (World.run (Gost94.gost94 sb h0) ⟨fun _ => none, slots⟩ ops) := by
  refine total_world (.gost94 sb h0 hh) (Gost94.lawful hh) (short := fun n => decide (n < 2 ^ 59)) ⟨rfl, rfl, rfl, fun s blks hs hbl hn => ?_,
    fun s buf hs wf => Gost94.finalizeC_eq hb hs wf (List.length_replicate ..)⟩ (fun raw h hl => Gost94.shape_load (load_parts hl).1) slots hl ops
    (fun i d h n hn => ?_)
  · have hn : blks.length < 2 ^ 59 := of_decide_eq_true hn
    refine bind_ok (if_pos (by omega)) <| bind_ok (Gost94.updateNC_eq s.n _) ?_
    rw [C30_gost94_slice s.n blks hn]
    exact (C60_gost94 sb hb ⟨s.h, blks.foldl (fun n _ => Gost94.updateN n 32) s.n, s.sigma⟩ hs).1 blks hbl
  · have := hops i d h
    have e : (Gost94.gost94 sb h0).bs = 32 := rfl
    rw [e] at hn
    exact decide_eq_true (by omega)

/-- C71 (Whirlpool): programs whose chunks have fewer than `2^61` bytes each. -/
theorem C71_whirlpool (slots : Nat → Option Bytes)
    (hl : ∀ t raw, slots t = some raw → raw.length = Whirlpool.whirlpool.serLen + (Whirlpool.whirlpool.bs + 1)) (ops : List Op)
    (hops : ∀ i d, Op.update i d ∈ ops → d.length < 2 ^ 61) :
    WorldC.run Whirlpool.whirlpoolC Whirlpool.saveC.plain ⟨fun _ => none, slots⟩ ops =
      some (World.run Whirlpool.whirlpool ⟨fun _ => none, slots⟩ ops) := by
  refine total_world .whirlpool Whirlpool.lawful (short := fun n => decide (n < 2 ^ 55)) ⟨rfl, rfl, rfl, fun s blks _ hbl hn => ?_,
    fun s buf _ wf => ?_⟩ (fun _ _ _ => trivial) slots hl ops (fun i d h n hn => ?_)
  · have hn : blks.length < 2 ^ 55 := of_decide_eq_true hn
    refine (Whirlpool.sim.upd s blks trivial hbl).trans ?_
    show ((Count.mul 64 512 blks.length).map _).map _ = _
    rw [Count.mul, if_pos (by omega)]; rfl
  · have hp : buf.pos < 64 := wf.2
    refine (Whirlpool.sim.fin s buf trivial wf).trans ?_
    show ((Count.mul 64 8 buf.pos).map _).map _ = _
    rw [Count.mul, if_pos (by omega)]; rfl
  · have := hops i d h
    have e : Whirlpool.whirlpool.bs = 64 := rfl
    rw [e] at hn
    exact decide_eq_true (by omega)

/-! ### FSB -/

/-- The outputs wrapped in `some`, as in the model of FSB. -/
theorem run_some {τ ω : Type} (cc : CoreC τ ω) (S : WrapC τ) (ops : List Op) (v : WorldC τ) :
    WorldC.run { cc with finalize := fun s b => (cc.finalize s b).map some } S v ops = (WorldC.run cc S v ops).map (List.map some) := by
  induction ops generalizing v with
  | nil => rfl
  | cons op ops ih =>
    have e : WorldC.step { cc with finalize := fun s b => (cc.finalize s b).map some } S v op =
        (WorldC.step cc S v op).map fun r => (r.1, r.2.map some) := by
      have eu : ∀ x d, CoreC.updateC { cc with finalize := fun s b => (cc.finalize s b).map some } x d = cc.updateC x d := fun _ _ => rfl
      have er : ∀ x, CoreC.resetC { cc with finalize := fun s b => (cc.finalize s b).map some } x = cc.resetC x := fun _ => rfl
      cases op with
      | new h => simp only [WorldC.step]; cases cc.init <;> rfl
      | update h d => simp only [WorldC.step, eu]; cases v.vars h with | none => rfl | some x => simp only; cases cc.updateC x d <;> rfl
      | clone s d => simp only [WorldC.step]; cases v.vars s <;> rfl
      | reset h => simp only [WorldC.step, er]; cases v.vars h with | none => rfl | some x => simp only; cases cc.resetC x <;> rfl
      | finalizeReset h =>
        simp only [WorldC.step, er]
        cases v.vars h with
        | none => rfl
        | some x => simp only; cases cc.finalize x.1 x.2 <;> [rfl; (cases cc.resetC x <;> rfl)]
      | finalize h => simp only [WorldC.step]; cases v.vars h with | none => rfl | some x => simp only; cases cc.finalize x.1 x.2 <;> rfl
      | save h t => simp only [WorldC.step]; cases v.vars h with | none => rfl | some x => simp only; cases S.save cc.bs x.1 x.2 <;> rfl
      | load t h => simp only [WorldC.step]; cases v.slots t with | none => rfl | some x => simp only; cases S.load cc.kind cc.bs x <;> rfl
    rw [WorldC.run, WorldC.run, e]
    cases WorldC.step cc S v op with
    | none => rfl
    | some r =>
      show Option.bind (WorldC.run _ S r.1 ops) _ = Option.map _ (Option.bind (WorldC.run cc S r.1 ops) _)
      rw [ih]
      cases WorldC.run cc S r.1 ops with
      | none => rfl
      | some ds => cases h : r.2 <;> simp [h]

open Classical in
/-- C71 (FSB), every table of the size of pi.bin. -/
theorem C71_fsb (P : Fsb.Params) (n : Nat)
    (hP : (P, n) ∈ [(Fsb.fsb160, 80), (Fsb.fsb224, 112), (Fsb.fsb256, 128), (Fsb.fsb384, 184), (Fsb.fsb512, 248)]) (PI : Bytes)
    (hPI : PI.length = 272384) (slots : Nat → Option Bytes)
    (hl : ∀ t raw, slots t = some raw → raw.length = (Fsb.core P PI).serLen + (P.bs + 1)) (ops : List Op) :
    (WorldC.run (Fsb.fsbC P PI) (Fsb.saveC P n).plain ⟨fun _ => none, slots⟩ ops).map (List.map some) =
      if Spec.Lens.fits (2 ^ 64 * P.bs) (2 ^ 61)
        ⟨fun _ => none, fun t => (slots t).map fun raw => ((Fsb.core P PI).load raw).map (claimed (Fsb.core P PI) Fsb.State.blocksLen)⟩ ops
      then some (World.run (Fsb.core P PI) ⟨fun _ => none, slots⟩ ops) else none := by
  have hs : ∀ p ∈ [(Fsb.fsb160, 80), (Fsb.fsb224, 112), (Fsb.fsb256, 128), (Fsb.fsb384, 184), (Fsb.fsb512, 248)], p.1 ∈ Fsb.all ∧
    p.1.n / p.1.r * (p.1.p / 8 + 1) ≤ 272384 := by decide
  have hA : P ∈ Fsb.all := (hs _ hP).1
  have hp : P.n / P.r * (P.p / 8 + 1) ≤ PI.length := by rw [hPI]; exact (hs _ hP).2
  have g := Fsb.good hA
  have L := Fsb.lawful g hp
  have lb := Fsb.bare_lawful g hp
  have ok : ∀ h, Reached (Fsb.core P PI) h → Fsb.Ok P h.core ∧ h.buf.WF .eager P.bs := fun h hr =>
    hr.inv' L fun raw h hl => Fsb.ok_load (load_parts hl).1
  have sim := Fsb.sim hA hp
  rw [← run_some]
  refine counted_world (c := Fsb.core P PI) (ctr := Fsb.State.blocksLen) (rep := fun s => (s.state.getD [], s.blocksLen))
    (Saves.fsb P n hP PI hPI) rfl rfl rfl rfl (fun h d hr => ?_) (fun h hr => ?_) slots hl ops
  · have := sim.update lb h (ok h hr).1 (ok h hr).2 d
    exact ⟨this.1, fun hlt => (this.2 hlt).2.2⟩
  · have f := Fsb.finalize_some g hp (ok h hr).1 (ok h hr).2
    have := sim.resume_limit (.fsb P hA) lb h (ok h hr).1 (ok h hr).2 []
    simp only [List.flatten_nil, List.length_nil, Nat.add_zero] at this
    have e : (Fsb.fsbC P PI).finalize (h.core.state.getD [], h.core.blocksLen) h.buf =
      if P.bs * h.core.blocksLen.toNat + h.buf.pos < 2 ^ 61 then some ((Fsb.finalize P PI h.core h.buf).getD []) else none := this
    show ((Fsb.fsbC P PI).finalize (h.core.state.getD [], h.core.blocksLen) h.buf).map some = _
    rw [e]
    unfold claimed
    simp only [decide_eq_true_eq]
    show Option.map some (if P.bs * h.core.blocksLen.toNat + h.buf.pos < 2 ^ 61 then _ else none) =
      if P.bs * h.core.blocksLen.toNat + h.buf.pos < 2 ^ 61 then some (Fsb.finalize P PI h.core h.buf) else none
    rw [f]
    split <;> rfl

/-! A program is given a forged SHA-256 state that claims `2^55` blocks.  It may add to it, save it again and reset it; finalizing the
state, also after the second restore, is a panic.  Bytes that are no state leave no hasher to finalize. -/

theorem forged_slots (n : Nat) : ∀ (t : Nat) (raw : Bytes), (fun _ : Nat => some (Sha256.sha256.save (forged n))) t = some raw →
    raw.length = Sha256.sha256.serLen + (Sha256.sha256.bs + 1) := by
  rintro t _ ⟨⟩
  obtain ⟨h, hl, -⟩ := forged_load n
  exact load_length hl

example : WorldC.run (Sha256.sha256C 32) (Sha256.saveC.ct 32) ⟨fun _ => none, fun _ => some (Sha256.sha256.save (forged (2 ^ 55)))⟩
      [.load 0 0, .update 0 [7], .save 0 1, .reset 0, .finalizeReset 0] ≠ none ∧
    WorldC.run (Sha256.sha256C 32) (Sha256.saveC.ct 32) ⟨fun _ => none, fun _ => some (Sha256.sha256.save (forged (2 ^ 55)))⟩
      [.load 0 0, .update 0 [7], .save 0 1, .reset 0, .finalizeReset 0, .load 1 2, .finalize 2] = none := by
  classical
  obtain ⟨h, hl, h1, h2⟩ := forged_load (2 ^ 55)
  have hc : claimed Sha256.sha256 Sha256.State.blockLen h = 64 * 2 ^ 55 := by
    show 64 * h.core.blockLen.toNat + h.buf.pos = _
    rw [h1, h2]; decide
  have key := fun ops => C71_counted (c := Sha256.sha256) (.sha256 32 _ rfl) (.sha256 32 _ rfl) _ (forged_slots (2 ^ 55)) ops
  generalize Sha256.sha256.save (forged (2 ^ 55)) = raw at hl key
  simp only [Option.map_some, hl, hc] at key
  constructor
  · rw [key, if_pos ?_]
    · exact nofun
    · simp [Spec.Lens.fits, Spec.Lens.keeps, Spec.Lens.step, setAt]
      decide
  · rw [key, if_neg ?_]
    simp [Spec.Lens.fits, Spec.Lens.keeps, Spec.Lens.step, setAt]

example : WorldC.run Md5.md5C Md5.saveC.plain ⟨fun _ => none, fun _ => none⟩
      [.new 0, .update 0 [97], .clone 0 1, .update 1 [98], .finalize 0, .save 1 5, .load 5 2, .finalizeReset 2, .finalize 2] =
    some [Md5.md5.digest [97], Md5.md5.digest [97, 98], Md5.md5.digest []] :=
  C71_uncounted_fresh .md5 .md5 _

end Hashes
