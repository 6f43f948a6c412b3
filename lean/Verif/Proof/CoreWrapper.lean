import Verif.Proof.Padding
import Verif.Spec.History
/- Generic refinement: hashers built by `CoreWrapper` from a lawful core behave as byte logs. -/
namespace Hashes
variable {σ ω : Type}

/-- The laws an algorithm core has to satisfy for the generic theorems. -/
structure Core.Lawful (c : Core σ ω) (inv : σ → Prop) : Prop where
  bs_pos : 0 < c.bs
  nil : ∀ s, c.updateBlocks s [] = s
  app : ∀ s x y, c.updateBlocks (c.updateBlocks s x) y = c.updateBlocks s (x ++ y)
  inv_init : inv c.init
  inv_update : ∀ s x, (∀ b ∈ x, b.length = c.bs) → inv s → inv (c.updateBlocks s x)
  reset_eq : ∀ s, inv s → c.reset s = c.init
  fin_congr : ∀ s b b', b.WF c.kind c.bs → b'.WF c.kind c.bs → b.content = b'.content →
    c.finalize s b = c.finalize s b'

/-- The laws of the serialization of the core part. -/
structure Core.SerLawful (c : Core σ ω) (inv : σ → Prop) : Prop where
  bs_le : c.bs ≤ 255
  len : ∀ s, inv s → (c.serialize s).length = c.serLen
  round : ∀ s, inv s → c.deserialize (c.serialize s) = some s

/-- The hasher `h` holds exactly the message `m`. -/
def Core.Rep (c : Core σ ω) (h : Hasher σ) (m : Bytes) : Prop :=
  h.buf.WF c.kind c.bs ∧
  h.core = c.updateBlocks c.init (blocks c.bs (nFull c.kind c.bs m.length) m) ∧
  h.buf.content = m.drop (nFull c.kind c.bs m.length * c.bs)

/-- Digest of a message fed in one `update` call to a fresh hasher. -/
def Core.digest (c : Core σ ω) (m : Bytes) : ω := c.finish (c.update c.new m)

/-- Feed a list of chunks one `update` at a time. -/
def Core.updates (c : Core σ ω) (h : Hasher σ) (l : List Bytes) : Hasher σ := l.foldl c.update h

namespace Core
variable {c : Core σ ω} {inv : σ → Prop}

theorem nFull_append {k : BufKind} {bs : Nat} (hbs : 0 < bs) (a : Nat) (b : Nat) :
    nFull k bs (a + b) = nFull k bs a + nFull k bs (a - nFull k bs a * bs + b) := by
  have hle : nFull k bs a * bs ≤ a := nFull_mul_le
  cases k with
  | eager =>
    simp only [nFull] at *
    conv => lhs; rw [show a + b = (a - a / bs * bs + b) + a / bs * bs by omega, Nat.add_mul_div_right _ _ hbs]
    rw [Nat.add_comm]
  | lazy =>
    simp only [nFull] at *
    by_cases h0 : a = 0
    · subst h0; simp
    · have hlt : (a - 1) / bs * bs ≤ a - 1 := Nat.div_mul_le_self ..
      rw [show a + b - 1 = (a - (a - 1) / bs * bs + b - 1) + (a - 1) / bs * bs by omega,
        Nat.add_mul_div_right _ _ hbs, Nat.add_comm]

theorem Rep.new (L : c.Lawful inv) : c.Rep c.new [] := by
  have : nFull c.kind c.bs 0 = 0 := by cases c.kind <;> simp [nFull]
  refine ⟨BlockBuffer.WF.empty L.bs_pos, ?_, ?_⟩
  · simp [Core.new, this, blocks, L.nil]
  · simp [Core.new]

theorem Rep.update (L : c.Lawful inv) {h : Hasher σ} {m : Bytes} (r : c.Rep h m) (d : Bytes) :
    c.Rep (c.update h d) (m ++ d) := by
  obtain ⟨wf, hc, hb⟩ := r
  obtain ⟨h1, h2, h3⟩ := BlockBuffer.digestBlocks_spec L.bs_pos wf d c.updateBlocks h.core L.nil L.app
  have hle : nFull c.kind c.bs m.length * c.bs ≤ m.length := nFull_mul_le
  have hlen : (h.buf.content ++ d).length = m.length - nFull c.kind c.bs m.length * c.bs + d.length := by
    simp [hb]
  have hn := nFull_append (k := c.kind) L.bs_pos m.length d.length
  rw [hlen] at h2 h3
  refine ⟨h1, ?_, ?_⟩
  · simp only [Core.update]
    rw [h3, hc, L.app, List.length_append, hn, blocks_add, blocks_append_left _ _ _ _ hle, hb,
      List.drop_append_of_le_length hle]
  · simp only [Core.update]
    rw [h2, List.length_append, hn, Nat.add_mul, ← List.drop_drop,
      List.drop_append_of_le_length hle, hb]

theorem Rep.updates (L : c.Lawful inv) {h : Hasher σ} {m : Bytes} (r : c.Rep h m) (l : List Bytes) :
    c.Rep (c.updates h l) (m ++ l.flatten) := by
  induction l generalizing h m with
  | nil => simpa [Core.updates] using r
  | cons d l ih =>
    have := ih (r.update L d)
    simpa [Core.updates] using this

theorem Rep.invariant (L : c.Lawful inv) {h : Hasher σ} {m : Bytes} (r : c.Rep h m) : inv h.core := by
  rw [r.2.1]; exact L.inv_update _ _ (fun b hb => length_of_mem_blocks nFull_mul_le hb) L.inv_init

theorem Rep.finish (L : c.Lawful inv) {h : Hasher σ} {m : Bytes} (r : c.Rep h m) :
    c.finish h = c.digest m := by
  have r' := (Rep.new L).update L m
  rw [List.nil_append] at r'
  simp only [Core.digest, Core.finish]
  rw [r.2.1, r'.2.1]
  exact L.fin_congr _ _ _ r.1 r'.1 (by rw [r.2.2, r'.2.2])

theorem Rep.reset (L : c.Lawful inv) {h : Hasher σ} {m : Bytes} (r : c.Rep h m) :
    c.Rep (c.resetH h) [] := by
  have : nFull c.kind c.bs 0 = 0 := by cases c.kind <;> simp [nFull]
  refine ⟨r.1.reset L.bs_pos, ?_, ?_⟩
  · simp [Core.resetH, L.reset_eq _ (r.invariant L), this, blocks, L.nil]
  · simp [Core.resetH]

end Core

/-! ### Buffer serialization -/
namespace BlockBuffer

theorem all_zero_replicate (n : Nat) : (List.replicate n (0 : Byte)).all (· == 0) = true := by
  simp

theorem fits_iff {k : BufKind} {bs : Nat} {b : BlockBuffer} :
    b.WF k bs ↔ b.data.length = bs ∧ fits k b.pos bs = true := by
  cases k <;> simp [WF, fits]

theorem deserialize_serialize {k : BufKind} {bs : Nat} {b : BlockBuffer} (hbs : bs ≤ 255)
    (wf : b.WF k bs) :
    ∃ b', deserialize k bs (b.serialize bs) = some b' ∧ b'.WF k bs ∧ b'.content = b.content := by
  have hcl := wf.length_content
  have hple := wf.pos_le
  have hfit := (fits_iff.mp wf).2
  have hpos : (BitVec.ofNat 8 b.pos).toNat = b.pos := by simp; omega
  refine ⟨⟨b.content ++ List.replicate (bs - b.pos) 0, b.pos⟩, ?_, fits_iff.mpr ⟨?_, hfit⟩, ?_⟩
  · simp only [deserialize, serialize, hpos]
    rw [if_neg (by simp [hcl]; omega), if_neg (by simp [hfit])]
    rw [show (b.content ++ List.replicate (bs - b.pos) (0 : Byte)).drop b.pos = List.replicate (bs - b.pos) 0 by
      conv => lhs; rw [← hcl, List.drop_left, hcl]]
    rw [if_pos (all_zero_replicate _)]
  · simp [hcl]; omega
  · simp only [content]
    rw [show List.take b.pos b.data = b.content from rfl]
    conv => lhs; rw [← hcl]
    exact List.take_left

theorem all_zero_eq {l : Bytes} (h : l.all (· == 0) = true) : l = List.replicate l.length 0 := by
  induction l with
  | nil => rfl
  | cons x xs ih =>
    simp only [List.all_cons, Bool.and_eq_true, beq_iff_eq] at h
    rw [List.length_cons, List.replicate_succ, ← ih h.2, h.1]

/-- Accepted buffer bytes are well formed and canonical. -/
theorem serialize_deserialize {k : BufKind} {bs : Nat} {raw : Bytes} {b : BlockBuffer}
    (h : deserialize k bs raw = some b) : b.WF k bs ∧ b.serialize bs = raw := by
  simp only [deserialize] at h
  split at h
  · cases h
  · rename_i hl
    simp only [ne_eq, Decidable.not_not] at hl
    cases raw with
    | nil => simp at hl
    | cons p data =>
      simp only [List.length_cons] at hl h
      have hl' : data.length = bs := by omega
      split at h
      · cases h
      · rename_i hp
        simp only [Bool.not_eq_true, Bool.not_eq_false] at hp
        split at h
        · rename_i hz
          injection h with h
          subst h
          refine ⟨fits_iff.mpr ⟨hl', hp⟩, ?_⟩
          have hz' := all_zero_eq hz
          have hzl : (List.drop p.toNat data).length = bs - p.toNat := by simp [hl']
          rw [hzl] at hz'
          simp only [serialize, content]
          rw [show BitVec.ofNat 8 p.toNat = p by simp, ← hz', List.take_append_drop]
        · cases h

end BlockBuffer

/-- Saving and loading a hasher that holds `m` gives a hasher that holds `m`. -/
theorem Core.Rep.save_load {c : Core σ ω} {inv : σ → Prop} (L : c.Lawful inv) (S : c.SerLawful inv)
    {h : Hasher σ} {m : Bytes} (r : c.Rep h m) : ∃ h', c.load (c.save h) = some h' ∧ c.Rep h' m := by
  have hi := r.invariant L
  obtain ⟨b', hb, wf', hc'⟩ := BlockBuffer.deserialize_serialize S.bs_le r.1
  refine ⟨⟨h.core, b'⟩, ?_, wf', r.2.1, by rw [← r.2.2]; exact hc'⟩
  simp only [Core.load, Core.save]
  have hl := S.len _ hi
  rw [show (c.serialize h.core ++ h.buf.serialize c.bs).take c.serLen = c.serialize h.core by
      rw [← hl, List.take_left],
    show (c.serialize h.core ++ h.buf.serialize c.bs).drop c.serLen = h.buf.serialize c.bs by
      rw [← hl, List.drop_left], S.round _ hi, hb]

/-! ### Histories -/

/-- The operations that use state serialization. -/
def Op.usesSave : Op → Bool
  | .save _ _ => true
  | .load _ _ => true
  | _ => false

/-- Both absent, or both present and related. -/
def OptRel {α β : Type} (R : α → β → Prop) : Option α → Option β → Prop
  | some a, some b => R a b
  | none, none => True
  | _, _ => False

/-- Simulation relation between program states and byte logs. -/
def Simulates (c : Core σ ω) (w : World σ) (l : Spec.LogWorld) : Prop :=
  (∀ i, OptRel c.Rep (w.vars i) (l.vars i)) ∧
  (∀ i, OptRel (fun raw m => ∃ h, c.load raw = some h ∧ c.Rep h m) (w.slots i) (l.slots i))

theorem sim_setAt {α β : Type} {R : α → β → Prop} {f : Nat → Option α} {g : Nat → Option β}
    (h : ∀ i, OptRel R (f i) (g i)) (i : Nat) {a : Option α} {b : Option β} (hab : OptRel R a b) :
    ∀ j, OptRel R (setAt f i a j) (setAt g i b j) := by
  intro j
  unfold setAt
  by_cases hj : j = i
  · simp only [hj, if_true]; exact hab
  · simp only [hj, if_false]; exact h j

theorem Simulates.step {c : Core σ ω} {inv : σ → Prop} (L : c.Lawful inv)
    (op : Op) (S : c.SerLawful inv ∨ op.usesSave = false)
    {w : World σ} {l : Spec.LogWorld} (h : Simulates c w l) :
    Simulates c (w.step c op).1 (l.step op).1 ∧
      (w.step c op).2 = (l.step op).2.map c.digest := by
  obtain ⟨hv, hs⟩ := h
  cases op with
  | new i => exact ⟨⟨sim_setAt hv i (Core.Rep.new L), hs⟩, rfl⟩
  | update i d =>
    have hi := hv i
    simp only [World.step, Spec.LogWorld.step]
    cases h1 : w.vars i <;> cases h2 : l.vars i <;> rw [h1, h2] at hi <;> simp only [OptRel] at hi ⊢
    · exact ⟨⟨hv, hs⟩, rfl⟩
    · exact ⟨⟨sim_setAt hv i (hi.update L d), hs⟩, rfl⟩
  | clone i j =>
    have hi := hv i
    simp only [World.step, Spec.LogWorld.step]
    cases h1 : w.vars i <;> cases h2 : l.vars i <;> rw [h1, h2] at hi <;> simp only [OptRel] at hi ⊢
    · exact ⟨⟨hv, hs⟩, rfl⟩
    · exact ⟨⟨sim_setAt hv j hi, hs⟩, rfl⟩
  | reset i =>
    have hi := hv i
    simp only [World.step, Spec.LogWorld.step]
    cases h1 : w.vars i <;> cases h2 : l.vars i <;> rw [h1, h2] at hi <;> simp only [OptRel] at hi ⊢
    · exact ⟨⟨hv, hs⟩, rfl⟩
    · exact ⟨⟨sim_setAt hv i (hi.reset L), hs⟩, rfl⟩
  | finalizeReset i =>
    have hi := hv i
    simp only [World.step, Spec.LogWorld.step]
    cases h1 : w.vars i <;> cases h2 : l.vars i <;> rw [h1, h2] at hi <;> simp only [OptRel] at hi ⊢
    · exact ⟨⟨hv, hs⟩, rfl⟩
    · exact ⟨⟨sim_setAt hv i (hi.reset L), hs⟩, by simp [hi.finish L]⟩
  | finalize i =>
    have hi := hv i
    simp only [World.step, Spec.LogWorld.step]
    cases h1 : w.vars i <;> cases h2 : l.vars i <;> rw [h1, h2] at hi <;> simp only [OptRel] at hi ⊢
    · exact ⟨⟨hv, hs⟩, rfl⟩
    · exact ⟨⟨sim_setAt hv i trivial, hs⟩, by simp [hi.finish L]⟩
  | save i t =>
    rcases S with S | S
    · have hi := hv i
      simp only [World.step, Spec.LogWorld.step]
      cases h1 : w.vars i <;> cases h2 : l.vars i <;> rw [h1, h2] at hi <;> simp only [OptRel] at hi ⊢
      · exact ⟨⟨hv, hs⟩, rfl⟩
      · refine ⟨⟨hv, ?_⟩, rfl⟩
        exact sim_setAt (R := fun raw m => ∃ h, c.load raw = some h ∧ c.Rep h m) hs t (hi.save_load L S)
    · cases S
  | load t i =>
    rcases S with S | S
    · have ht := hs t
      simp only [World.step, Spec.LogWorld.step]
      cases h1 : w.slots t <;> cases h2 : l.slots t <;> rw [h1, h2] at ht <;> simp only [OptRel] at ht ⊢
      · exact ⟨⟨hv, hs⟩, rfl⟩
      · obtain ⟨h', hl, hr⟩ := ht
        rw [hl]
        exact ⟨⟨sim_setAt hv i hr, hs⟩, rfl⟩
    · cases S

theorem Simulates.run {c : Core σ ω} {inv : σ → Prop} (L : c.Lawful inv)
    (ops : List Op) (S : c.SerLawful inv ∨ ∀ op ∈ ops, op.usesSave = false)
    {w : World σ} {l : Spec.LogWorld} (h : Simulates c w l) :
    World.run c w ops = (Spec.LogWorld.run l ops).map c.digest := by
  induction ops generalizing w l with
  | nil => rfl
  | cons op ops ih =>
    have S1 : c.SerLawful inv ∨ op.usesSave = false := S.imp id (fun f => f op (by simp))
    have S2 : c.SerLawful inv ∨ ∀ op ∈ ops, op.usesSave = false :=
      S.imp id (fun f o ho => f o (by simp [ho]))
    obtain ⟨h1, h2⟩ := Simulates.step L op S1 h
    have := ih S2 h1
    simp only [World.run, Spec.LogWorld.run]
    rw [h2, this]
    cases (l.step op).2 <;> simp

/-- A history emits the one-shot digests of exactly the logged messages. -/
theorem history_refines {c : Core σ ω} {inv : σ → Prop} (L : c.Lawful inv)
    (ops : List Op) (S : c.SerLawful inv ∨ ∀ op ∈ ops, op.usesSave = false) :
    runHistory c ops = (Spec.messagesOf ops).map c.digest :=
  Simulates.run L ops S ⟨fun _ => trivial, fun _ => trivial⟩

end Hashes
