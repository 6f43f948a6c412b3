import Verif.Props.WorldChecked
/-
C71 for the hashers that cannot be saved: BLAKE2, Skein, BelT, JH, Ascon, SHAKE, cSHAKE, TurboSHAKE, KangarooTwelve, sha1-checked.  Programs of any
`new`, `update`, `clone`, `reset`, `finalize_reset` and `finalize` calls.
-/
namespace Hashes
open Rs

/-- The counter book holds what it holds after a message of `n` bytes. -/
def Held {w : Nat} {σ : Type} (k : Count.Book w) (ctr : σ → BitVec w) (inv : σ → Prop) (h : Hasher σ) (n : Nat) : Prop :=
  inv h.core ∧ ∃ m : Bytes, m.length = n ∧ k.core.Rep ⟨some (ctr h.core), h.buf⟩ m

/-- What the calls of a program without saving panic on, by the counter book. -/
theorem fresh_world {w : Nat} {σ τ ω : Type} {cc : CoreC τ ω} {c : Core σ ω} {k : Count.Book w} {rep : σ → τ} {ctr : σ → BitVec w} {inv : σ → Prop}
    (Si : Sim cc c k rep ctr inv) (L : c.Lawful inv) (K : k.Lawful) (init : cc.init = some (rep c.init)) (ctr0 : ctr c.init = 0) {U F : Nat → Prop}
    (hU : ∀ n, (k.upd 0 (nFull k.kind k.bs n)).isSome = true ↔ U n)
    (hF : ∀ m : Bytes, (k.core.finish (k.core.updates k.core.new [m])).isSome = true ↔ F m.length)
    [∀ ops, Decidable (Spec.Lens.keeps U F ⟨fun _ => none, fun _ => none⟩ ops)]
    (S : WrapC τ) (ops : List Op) (hops : ∀ op ∈ ops, op.usesSave = false) :
    WorldC.run cc S ⟨fun _ => none, fun _ => none⟩ ops =
      if Spec.Lens.keeps U F ⟨fun _ => none, fun _ => none⟩ ops then some ((Spec.messagesOf ops).map c.digest) else none := by
  have ek : k.core.kind = c.kind := Si.kind'
  have eb : k.core.bs = c.bs := Si.bs'
  have wf : ∀ {h : Hasher σ} {n : Nat}, Held k ctr inv h n → h.buf.WF c.kind c.bs := by
    rintro h n ⟨-, m, -, r⟩
    rw [← ek, ← eb]; exact r.1
  have hnew : Held k ctr inv c.new 0 := ⟨L.inv_init, [], rfl, by
    have r := Core.Rep.new K.core
    have e : (⟨some (ctr c.new.core), c.new.buf⟩ : Hasher (Option (BitVec w))) = k.core.new := by
      show (⟨some (ctr c.init), .empty c.bs⟩ : Hasher (Option (BitVec w))) = ⟨some 0, .empty k.bs⟩
      rw [ctr0, Si.bs']
    rw [e]; exact r⟩
  have hres : ∀ h n, Held k ctr inv h n → Held k ctr inv (c.resetH h) 0 := by
    intro h n H
    have w' : h.buf.reset.WF k.core.kind k.core.bs := by rw [ek, eb]; exact (wf H).reset L.bs_pos
    refine ⟨by show inv (c.reset h.core); rw [L.reset_eq _ H.1]; exact L.inv_init, [], rfl, ?_⟩
    obtain ⟨hi, m, -, r⟩ := H
    have := r.reset K.core
    have e : (⟨some (ctr (c.resetH h).core), (c.resetH h).buf⟩ : Hasher (Option (BitVec w))) = k.core.resetH ⟨some (ctr h.core), h.buf⟩ := by
      show (⟨some (ctr (c.reset h.core)), h.buf.reset⟩ : Hasher (Option (BitVec w))) = ⟨some 0, h.buf.reset⟩
      rw [L.reset_eq _ hi, ctr0]
    rw [e]; exact this
  -- the counter of a hasher after `update`
  have hcore : ∀ h n d, Held k ctr inv h n →
      (k.core.update ⟨some (ctr h.core), h.buf⟩ d).core = k.upd 0 (nFull k.kind k.bs (n + d.length)) := by
    rintro h _ d ⟨-, m, rfl, r⟩
    rw [(r.update K.core d).2.1]
    simp only [Count.Book.core, Option.bind_some, length_blocks, List.length_append]
  have hupd : ∀ h n d, Held k ctr inv h n → (k.core.update ⟨some (ctr h.core), h.buf⟩ d).core.isSome = true →
      Held k ctr inv (c.update h d) (n + d.length) := by
    intro h n d H hs
    obtain ⟨e1, -, e2⟩ := Si.update_book L h H.1 (wf H) d
    obtain ⟨-, m, rfl, r⟩ := H
    obtain ⟨x, hx⟩ := Option.isSome_iff_exists.1 hs
    rw [hx] at e2
    refine ⟨e2.2.2, m ++ d, List.length_append, ?_⟩
    have := r.update K.core d
    have e : (⟨some (ctr (c.update h d).core), (c.update h d).buf⟩ : Hasher (Option (BitVec w))) = k.core.update ⟨some (ctr h.core), h.buf⟩ d := by
      rw [e2.2.1, e1, ← hx]
    rw [e]; exact this
  have st : Steps cc S c false rep (fun h => ∃ n, Held k ctr inv h n) (fun _ => True)
      (fun h d => (k.core.update ⟨some (ctr h.core), h.buf⟩ d).core.isSome) (fun h => (k.fin (ctr h.core).toNat h.buf.pos).isSome) := {
    kind := Si.kind
    bs := Si.bs
    init := init
    new := ⟨0, hnew⟩
    upd := by
      rintro h d ⟨n, H⟩ -
      obtain ⟨-, -, e2⟩ := Si.update_book L h H.1 (wf H) d
      rcases Option.eq_none_or_eq_some (k.core.update ⟨some (ctr h.core), h.buf⟩ d).core with hx | ⟨x, hx⟩
      · rw [hx] at e2 ⊢; exact e2
      · rw [hx] at e2 ⊢; exact e2.1
    updGood := fun h d ⟨n, H⟩ hs => ⟨_, hupd h n d H hs⟩
    fin := by
      rintro h ⟨n, H⟩
      rw [Si.fin h.core h.buf H.1 (wf H)]
      cases k.fin (ctr h.core).toNat h.buf.pos <;> rfl
    reset := fun h ⟨n, H⟩ => ⟨L.reset_eq _ H.1, 0, hres h n H⟩
    save := fun h => nomatch h
    load := fun h => nomatch h
    loadGood := fun h => nomatch h }
  rw [st.run ops (.inr hops) (fun _ _ _ => trivial) ⟨fun _ => none, fun _ => none⟩ _
      ⟨fun _ => rfl, rfl, fun _ _ h => (by cases h), fun _ _ h => (by cases h)⟩,
    ← C03_history_noser c L ops hops]
  refine if_congr (fits_keeps (R := Held k ctr inv) hnew (fun h n d H => ?_) hupd (fun h n H => ?_) hres ops (.inr hops) _ _
    ⟨fun _ => .none, fun _ => .none⟩) rfl rfl
  · rw [hcore h n d H]; exact hU _
  · obtain ⟨-, m, rfl, r⟩ := H
    rw [← hF m]
    have e := K.finish_rep r
    have e' := K.finish [m]
    simp only [List.flatten_cons, List.flatten_nil, List.append_nil] at e'
    rw [e', ← e]
    exact Iff.rfl

/-- Programs whose calls all succeed. -/
theorem keeps_true (ops : List Op) (l : Spec.Lens) : l.keeps (fun _ => True) (fun _ => True) ops := by
  induction ops generalizing l with
  | nil => trivial
  | cons op ops ih => exact ⟨by cases op <;> simp, ih _⟩

theorem total_fresh {σ τ ω : Type} {cc : CoreC τ ω} {c : Core σ ω} {rep : σ → τ} {inv : σ → Prop}
    (L : c.Lawful inv) (T : Total cc c rep inv fun _ => true) (S : WrapC τ) (ops : List Op) (hops : ∀ op ∈ ops, op.usesSave = false) :
    WorldC.run cc S ⟨fun _ => none, fun _ => none⟩ ops = some ((Spec.messagesOf ops).map c.digest) := by
  have st : Steps cc S c false rep (fun h => inv h.core ∧ h.buf.WF c.kind c.bs) (fun _ => True) (fun _ _ => true) (fun _ => true) := {
    kind := T.kind
    bs := T.bs
    init := T.init
    new := ⟨L.inv_init, (Core.Rep.new L).1⟩
    upd := fun h d H _ => (T.update L h H.1 H.2 d fun _ _ => rfl).1
    updGood := fun h d H _ => (T.update L h H.1 H.2 d fun _ _ => rfl).2
    fin := fun h H => T.fin _ _ H.1 H.2
    reset := fun h H => ⟨L.reset_eq _ H.1, by show inv (c.reset h.core); rw [L.reset_eq _ H.1]; exact L.inv_init, H.2.reset L.bs_pos⟩
    save := fun h => nomatch h
    load := fun h => nomatch h
    loadGood := fun h => nomatch h }
  rw [st.run ops (.inr hops) (fun _ _ _ => trivial) ⟨fun _ => none, fun _ => none⟩ _
      ⟨fun _ => rfl, rfl, fun _ _ h => (by cases h), fun _ _ h => (by cases h)⟩,
    ← C03_history_noser c L ops hops, fits_true c (fun _ => rfl) ops (fun _ _ _ _ => rfl)]
  rfl

/-- A hasher without serialization, the lengths to which `update` may lead, and the lengths at which it can be finalized. -/
inductive Unsaved : {σ τ ω : Type} → CoreC τ ω → Core σ ω → (U F : Nat → Prop) → Prop
  | blake2b (N : Nat) (c : Core (Blake2.State 64) Bytes) (h : Blake2.core Blake2.cfgB N = some c) :
      Unsaved (Blake2.blake2C Blake2.cfgB (Blake2.newC Blake2.cfgB N) N) c (· ≤ 2 ^ 64) (· < 2 ^ 64)
  | blake2s (N : Nat) (c : Core (Blake2.State 32) Bytes) (h : Blake2.core Blake2.cfgS N = some c) :
      Unsaved (Blake2.blake2C Blake2.cfgS (Blake2.newC Blake2.cfgS N) N) c (· ≤ 2 ^ 64) (· < 2 ^ 64)
  | skein (n : Nat) (hn : n = 4 ∨ n = 8 ∨ n = 16) (N : Nat) (hN : N < 2 ^ 61) :
      Unsaved (Skein.skeinC (threefishC n) n N) (Skein.core (threefish n) N) (· ≤ 2 ^ 64) (· < 2 ^ 64)
  /-- the block counter has 128 bits and wraps -/
  | belt : Unsaved (Belt.beltC beltBlockC) (Belt.belt beltBlock) (fun _ => True) (· % 2 ^ 133 < 2 ^ 125)
  | sha1Checked (x : Sha1Checked.Builder) : Unsaved (Sha1Checked.sha1CheckedC x) (Sha1Checked.sha1Checked x) (· < 2 ^ 64 * 64)
      (· < if x.detectCollision then 2 ^ 64 else 2 ^ 61)
  | jh (N : Nat) (c : Core Jh.State Bytes) (h : Jh.core N = some c) : Unsaved (Jh.jhC N) c (fun _ => True) (fun _ => True)
  | asconHash (P : Ascon.State → Ascon.State) : Unsaved (Ascon.hash256C P) (Ascon.hash256 P) (fun _ => True) (fun _ => True)
  | asconXof (P : Ascon.State → Ascon.State) : Unsaved (Ascon.xof128C P) (Ascon.xof128 P) (fun _ => True) (fun _ => True)
  | shake128 : Unsaved (Sha3.shakeC Sha3.f24 168 0x1F) Sha3.shake128 (fun _ => True) (fun _ => True)
  | shake256 : Unsaved (Sha3.shakeC Sha3.f24 136 0x1F) Sha3.shake256 (fun _ => True) (fun _ => True)
  | cshake128 (name cust : Bytes) (hn : name.length * 8 < 2 ^ 64) (hc : cust.length * 8 < 2 ^ 64) :
      Unsaved (Sha3.cshakeC Sha3.f24 168 name cust) (Sha3.cshake128 name cust) (fun _ => True) (fun _ => True)
  | cshake256 (name cust : Bytes) (hn : name.length * 8 < 2 ^ 64) (hc : cust.length * 8 < 2 ^ 64) :
      Unsaved (Sha3.cshakeC Sha3.f24 136 name cust) (Sha3.cshake256 name cust) (fun _ => True) (fun _ => True)
  | turboShake128 (d : Byte) (c : Core Sha3.Turbo Sha3.Lanes) (h : Sha3.turboShake128 d = some c) :
      Unsaved (Sha3.turboC Sha3.f12 168 d) c (fun _ => True) (fun _ => True)
  | turboShake256 (d : Byte) (c : Core Sha3.Turbo Sha3.Lanes) (h : Sha3.turboShake256 d = some c) :
      Unsaved (Sha3.turboC Sha3.f12 136 d) c (fun _ => True) (fun _ => True)

  /-- the number of chunks of 8192 bytes is a `usize` -/
  | k12 (cust : Bytes) (h : cust.length < 2 ^ 64) : Unsaved (K12.k12C cust) (K12.core cust) (· < 2 ^ 77 + 128)
      (fun n => n + cust.length + (Spec.K12.lengthEncode cust.length).length ≤ 2 ^ 77)

/-- The counter of BLAKE2 and Skein: an `update` may lead to exactly `2^64` bytes, since the last block waits in the buffer. -/
theorem perBlock_cap {bs : Nat} (h0 : 0 < bs) (hd : bs ∣ 2 ^ 64) (n : Nat) : (Count.perBlock bs 0 (nFull .lazy bs n)).isSome = true ↔ n ≤ 2 ^ 64 := by
  obtain ⟨q, hq⟩ := hd
  have e : nFull .lazy bs n = (n - 1) / bs := rfl
  rw [Count.perBlock_eq, Count.bump_zero, e]
  have key : (n - 1) / bs * bs < 2 ^ 64 ↔ n ≤ 2 ^ 64 := by
    rw [hq, Nat.mul_comm bs q, Nat.mul_lt_mul_right h0, Nat.div_lt_iff_lt_mul h0, Nat.mul_comm q bs, ← hq]
    omega
  rw [← key]
  split <;> simp_all

theorem shake_total {f : Sha3.Lanes → Sha3.Lanes} (hf : Sha3.Perm f) {rate : Nat} (h0 : 0 < rate) (h8 : rate % 8 = 0) (pad : Byte) :
    Total (Sha3.shakeC f rate pad) (Sha3.shake f rate pad) id (fun s => s.length = 25) fun _ => true :=
  plain_total (Sha3.shake_lawful hf h0 pad) id (Sha3.absorbBlock f) rfl rfl rfl (fun _ _ => rfl)
    (fun s b _ hb => Sha3.absorbBlockC_eq f s (by rw [hb]; exact h8)) (fun s _ _ wf => Sha3.finalizeXofC_eq f h8 pad s wf.1 wf.2)

theorem cshake_total (f : Sha3.Lanes → Sha3.Lanes) {rate : Nat} (h0 : 0 < rate) (h8 : rate % 8 = 0) {name cust : Bytes}
    (hn : name.length * 8 < 2 ^ 64) (hc : cust.length * 8 < 2 ^ 64) {inv : Sha3.CShake → Prop} :
    Total (Sha3.cshakeC f rate name cust) (Sha3.cshake f rate name cust) id inv fun _ => true :=
  ⟨rfl, rfl, Sha3.CShake.newC_eq f h0 h8 hn hc, fun s blks _ hbl _ => bind_ok (Sha3.foldlM_absorb f h8 blks hbl s.state) rfl,
    fun s _ _ wf => Sha3.finalizeXofC_eq f h8 s.padding s.state wf.1 wf.2⟩

theorem turbo_total (f : Sha3.Lanes → Sha3.Lanes) {rate : Nat} (h8 : rate % 8 = 0) {d : Byte} {i : Sha3.Turbo}
    (hi : Sha3.Turbo.new d = some i) {inv : Sha3.Turbo → Prop} :
    Total (Sha3.turboC f rate d) (Sha3.turbo f rate i) id inv fun _ => true where
  kind := rfl
  bs := rfl
  init := by
    unfold Sha3.Turbo.new at hi
    split at hi
    · next h => cases hi; exact bind_ok (check_of h) rfl
    · cases hi
  upd := fun s blks _ hbl _ => bind_ok (Sha3.foldlM_absorb f h8 blks hbl s.state) rfl
  fin := fun s _ _ wf => Sha3.finalizeXofC_eq f h8 s.domain s.state wf.1 wf.2

/-- The number of bytes a KangarooTwelve hasher has been given. -/
def K12.given (h : Hasher K12.State) : Nat := h.core.chainLength * 8192 + h.core.bufpos + h.buf.pos

theorem K12.given_eq {cust m : Bytes} {h : Hasher K12.State} (r : (K12.core cust).Rep h m) : K12.given h = m.length := by
  have i := K12.Inv.of_rep r
  obtain ⟨wf, -, hb⟩ := r
  have hl := wf.length_content
  rw [hb, List.length_drop] at hl
  have hn : nFull (K12.core cust).kind (K12.core cust).bs m.length * (K12.core cust).bs = m.length / 128 * 128 := rfl
  have hc := i.chain
  have hp := i.pos
  have hle := Nat.div_mul_le_self m.length 128
  rw [List.length_take_of_le hle] at hc hp
  rw [K12.given, hc, hp, ← hl, hn]
  omega

theorem k12_world {cust : Bytes} (hc : cust.length < 2 ^ 64) (S : WrapC K12.State) (ops : List Op) (hops : ∀ op ∈ ops, op.usesSave = false)
    [∀ ops, Decidable (Spec.Lens.keeps (· < 2 ^ 77 + 128) (fun n => n + cust.length + (Spec.K12.lengthEncode cust.length).length ≤ 2 ^ 77)
      ⟨fun _ => none, fun _ => none⟩ ops)] :
    WorldC.run (K12.k12C cust) S ⟨fun _ => none, fun _ => none⟩ ops =
      if Spec.Lens.keeps (· < 2 ^ 77 + 128) (fun n => n + cust.length + (Spec.K12.lengthEncode cust.length).length ≤ 2 ^ 77)
          ⟨fun _ => none, fun _ => none⟩ ops then
        some ((Spec.messagesOf ops).map (K12.core cust).digest) else none := by
  have L := K12.lawful cust
  have st : Steps (K12.k12C cust) S (K12.core cust) false id (fun h => ∃ m : Bytes, m.length < 2 ^ 77 + 128 ∧ (K12.core cust).Rep h m) (fun _ => True)
      (fun h d => decide (K12.given h + d.length < 2 ^ 77 + 128))
      (fun h => decide (K12.given h + cust.length + (Spec.K12.lengthEncode cust.length).length ≤ 2 ^ 77)) := {
    kind := rfl
    bs := rfl
    init := K12.newC_eq cust
    new := ⟨[], by decide, Core.Rep.new L⟩
    upd := by
      rintro h d ⟨m, hm, r⟩ -
      have e := K12.digestC_eq r hm d
      simp only [K12.given_eq r, decide_eq_true_eq]
      have e' : (K12.k12C cust).updateC (h.core, h.buf) d = (K12.digestC h.core h.buf d).2.bind fun s => some (s, (K12.digestC h.core h.buf d).1) := rfl
      show (K12.k12C cust).updateC (h.core, h.buf) d = _
      rw [e', e]
      split <;> rfl
    updGood := by
      rintro h d ⟨m, hm, r⟩ hs
      simp only [K12.given_eq r, decide_eq_true_eq] at hs
      exact ⟨m ++ d, by rw [List.length_append]; exact hs, r.update L d⟩
    fin := by
      rintro h ⟨m, hm, r⟩
      simp only [K12.given_eq r, decide_eq_true_eq, ← K12.lengthEncode_eq]
      exact K12.finalizeC_eq r hm hc
    reset := fun h ⟨m, hm, r⟩ => ⟨L.reset_eq _ (r.invariant L), [], by decide, r.reset L⟩
    save := fun h => nomatch h
    load := fun h => nomatch h
    loadGood := fun h => nomatch h }
  rw [st.run ops (.inr hops) (fun _ _ _ => trivial) ⟨fun _ => none, fun _ => none⟩ _
      ⟨fun _ => rfl, rfl, fun _ _ h => (by cases h), fun _ _ h => (by cases h)⟩,
    ← C03_history_noser (K12.core cust) L ops hops]
  refine if_congr (fits_keeps (R := fun h n => ∃ m : Bytes, m.length = n ∧ (K12.core cust).Rep h m) ⟨[], rfl, Core.Rep.new L⟩
    ?_ ?_ ?_ (fun h n ⟨m, _, r⟩ => ⟨[], rfl, r.reset L⟩) ops (.inr hops) _ _ ⟨fun _ => .none, fun _ => .none⟩) rfl rfl
  · rintro h _ d ⟨m, rfl, r⟩
    rw [K12.given_eq r, decide_eq_true_eq]
  · rintro h _ d ⟨m, rfl, r⟩ -
    exact ⟨m ++ d, List.length_append, r.update L d⟩
  · rintro h _ ⟨m, rfl, r⟩
    rw [K12.given_eq r, decide_eq_true_eq]

open Classical in
/-- C71. Any program over hashers that cannot be saved: it panics exactly when some `update` leads to a length outside `U` or some
finalization happens at a length outside `F`. Otherwise it emits the digests of the messages logged by C03. -/
theorem C71_unsaved {σ τ ω : Type} {cc : CoreC τ ω} {c : Core σ ω} {U F : Nat → Prop} (H : Unsaved cc c U F) (S : WrapC τ) (ops : List Op)
    (hops : ∀ op ∈ ops, op.usesSave = false) :
    WorldC.run cc S ⟨fun _ => none, fun _ => none⟩ ops =
      if Spec.Lens.keeps U F ⟨fun _ => none, fun _ => none⟩ ops then some ((Spec.messagesOf ops).map c.digest) else none := by
  have limit : ∀ {w : Nat} {k : Count.Book w} {limit : Nat} {value : Nat → Nat}, Counted k limit value → ∀ m : Bytes,
      (k.core.finish (k.core.updates k.core.new [m])).isSome = true ↔ m.length < limit := by
    intro w k limit value h m
    rw [C29_exact h [m], List.flatten_cons, List.flatten_nil, List.append_nil]
    split <;> simp_all
  have all : ∀ {x y : Option (List ω)}, x = y → x = if Spec.Lens.keeps (fun _ => True) (fun _ => True) ⟨fun _ => none, fun _ => none⟩ ops then y else none :=
    fun h => h.trans (if_pos (keeps_true ops _)).symm
  cases H with
  | blake2b N _ h =>
    obtain ⟨hN, s0, h0, rfl⟩ := VarCore.ct_inv h
    have h0 : Blake2.newWithParams Blake2.cfgB [] [] 0 N = some s0 := (if_neg (Nat.not_lt.2 hN)).symm.trans h0
    have ht : s0.t = 0 := by
      rcases Blake2.params_eq Blake2.goodB.h4 Blake2.goodB.M Blake2.goodB.hb Blake2.goodB.head [] [] 0 N with ⟨h1, -⟩ | ⟨-, s, h2, ht, -⟩
      · exact absurd ⟨Nat.zero_le _, hN, Nat.zero_le _, Nat.zero_le _⟩ h1
      · cases h0.symm.trans h2; exact ht
    exact fresh_world (k := Count.blake2 128) (Blake2.sim (c := Blake2.cfgB) (by decide) (.inl rfl) rfl rfl (by decide) _ s0 hN) (Blake2.goodB.lawful.ct N s0)
      (Count.lawful_perBlock (by decide)) ((Blake2.newC_eq rfl (by decide) hN).trans h0) ht (perBlock_cap (by decide) (by decide)) (limit .blake2b) S ops hops
  | blake2s N _ h =>
    obtain ⟨hN, s0, h0, rfl⟩ := VarCore.ct_inv h
    have h0 : Blake2.newWithParams Blake2.cfgS [] [] 0 N = some s0 := (if_neg (Nat.not_lt.2 hN)).symm.trans h0
    have ht : s0.t = 0 := by
      rcases Blake2.params_eq Blake2.goodS.h4 Blake2.goodS.M Blake2.goodS.hb Blake2.goodS.head [] [] 0 N with ⟨h1, -⟩ | ⟨-, s, h2, ht, -⟩
      · exact absurd ⟨Nat.zero_le _, hN, Nat.zero_le _, Nat.zero_le _⟩ h1
      · cases h0.symm.trans h2; exact ht
    exact fresh_world (k := Count.blake2 64) (Blake2.sim (c := Blake2.cfgS) (by decide) (.inr rfl) rfl rfl (by decide) _ s0 hN) (Blake2.goodS.lawful.ct N s0)
      (Count.lawful_perBlock (by decide)) ((Blake2.newC_eq rfl (by decide) hN).trans h0) ht (perBlock_cap (by decide) (by decide)) (limit .blake2s) S ops hops
  | skein n hn N hN =>
    have hd : 8 * n ∣ 2 ^ 64 := by rcases hn with rfl | rfl | rfl <;> decide
    exact fresh_world (Skein.sim (E := threefishC n) (E' := threefish n) (fun _ _ _ => rfl) (by omega) (by omega) (by omega))
      (Skein.lawful N (by omega)) (Count.lawful_perBlock (by omega)) (Skein.initC_eq (fun _ _ _ => rfl) (by omega) (by omega)) rfl
      (perBlock_cap (by omega) hd) (limit (.skein n hn)) S ops hops
  | belt =>
    refine fresh_world (Belt.sim (E := beltBlockC) (E' := beltBlock) fun _ _ => rfl) (Belt.lawful _) (Count.lawful_wbump (by decide)) rfl rfl
      (fun n => iff_of_true rfl trivial) (fun m => ?_) S ops hops
    have e : Count.belt.core.finish (Count.belt.core.updates Count.belt.core.new [m]) = _ := Count.finish_wbump (by decide) [m]
    rw [e, List.flatten_cons, List.flatten_nil, List.append_nil]
    generalize m.length = L
    simp only [Count.mul, Count.add]
    by_cases h : L % 2 ^ 133 < 2 ^ 125
    · rw [if_pos (by omega), Option.bind_some, if_pos (by omega), Option.bind_some, if_pos (by omega)]
      exact iff_of_true rfl h
    · refine iff_of_false ?_ h
      split
      · rw [Option.bind_some]
        split
        · rw [Option.bind_some, if_neg (by omega)]; decide
        · exact fun h => nomatch h
      · exact fun h => nomatch h
  | sha1Checked x =>
    have cap : ∀ n, (Count.bump 64 0 (nFull .eager 64 n)).isSome = true ↔ n < 2 ^ 64 * 64 := by
      intro n
      rw [Count.bump_zero, ← Nat.div_lt_iff_lt_mul (by decide)]
      show (if n / 64 < 2 ^ 64 then _ else _ : Option _).isSome = true ↔ _
      split <;> simp_all
    cases hx : x.detectCollision with
    | true => exact fresh_world (Sha1Checked.detect_sim hx) (Sha1Checked.lawful x) (Count.lawful_bump (by decide)) rfl rfl cap (limit .sha1Detect) S ops hops
    | false => exact fresh_world (Sha1Checked.plain_sim hx) (Sha1Checked.lawful x) (Count.lawful_bump (by decide)) rfl rfl cap (limit .sha1Plain) S ops hops
  | jh N _ h =>
    obtain ⟨hN, s0, h0, rfl⟩ := VarCore.ct_inv h
    have h0 : Jh.new N = some s0 := h0
    have hz : s0.blockLen = 0 := by unfold Jh.new at h0; split at h0 <;> cases h0 <;> rfl
    exact fresh_world (Jh.sim s0 hN) (Jh.lawful.ct N s0) (Count.lawful_wbump (by decide))
      (by simp only [Jh.jhC, countedC, h0, Option.map_some]; exact congrArg some (Prod.ext rfl hz.symm)) hz
      (fun n => iff_of_true rfl trivial) (fun m => iff_of_true (by rw [C29_wrapping _ (.inr (.inr rfl))]; rfl) trivial) S ops hops
  | asconHash P =>
    exact all (total_fresh (c := Ascon.hash256 P) (Ascon.hash_lawful P) (plain_total (Ascon.hash_lawful P) id (Ascon.absorbBlock P) rfl rfl rfl
      (fun _ _ => rfl) (fun s _ _ hb => Ascon.absorbBlockC_eq P s hb)
      (fun s _ _ wf => Ascon.finalizeC_eq P s wf.1 wf.2 (List.length_replicate ..))) S ops hops)
  | asconXof P =>
    exact all (total_fresh (c := Ascon.xof128 P) (Ascon.xof_lawful P) (plain_total (Ascon.xof_lawful P) id (Ascon.absorbBlock P) rfl rfl rfl
      (fun _ _ => rfl) (fun s _ _ hb => Ascon.absorbBlockC_eq P s hb) (fun s _ _ wf => Ascon.finalizeXofC_eq P s wf.1 wf.2)) S ops hops)
  | shake128 => exact all (total_fresh (Sha3.shake_lawful Sha3.perm24 (by decide) _) (shake_total Sha3.perm24 (by decide) rfl _) S ops hops)
  | shake256 => exact all (total_fresh (Sha3.shake_lawful Sha3.perm24 (by decide) _) (shake_total Sha3.perm24 (by decide) rfl _) S ops hops)
  | cshake128 name cust hn hc =>
    exact all (total_fresh (Sha3.cshake_lawful Sha3.perm24 (by decide) name cust) (cshake_total _ (by decide) rfl hn hc) S ops hops)
  | cshake256 name cust hn hc =>
    exact all (total_fresh (Sha3.cshake_lawful Sha3.perm24 (by decide) name cust) (cshake_total _ (by decide) rfl hn hc) S ops hops)
  | turboShake128 d _ h =>
    obtain ⟨i, hi, rfl⟩ := Option.map_eq_some_iff.1 h
    exact all (total_fresh (Sha3.turbo_lawful Sha3.perm12 (by decide) hi) (turbo_total _ rfl hi) S ops hops)
  | turboShake256 d _ h =>
    obtain ⟨i, hi, rfl⟩ := Option.map_eq_some_iff.1 h
    exact all (total_fresh (Sha3.turbo_lawful Sha3.perm12 (by decide) hi) (turbo_total _ rfl hi) S ops hops)
  | k12 cust hc => exact k12_world hc S ops hops

/-- Two BLAKE2b hashers: the first takes `2^64` bytes in two calls, which is accepted; its clone panics when finalized, and so does
one more byte; reset and used again it works. -/
example (S : WrapC (Blake2.State 64)) : ∃ c, Blake2.core Blake2.cfgB 64 = some c ∧
    (∀ a b : Bytes, a.length = 2 ^ 63 → b.length = 2 ^ 63 →
      WorldC.run (Blake2.blake2C Blake2.cfgB (Blake2.newC Blake2.cfgB 64) 64) S ⟨fun _ => none, fun _ => none⟩
        [.new 0, .update 0 a, .update 0 b, .clone 0 1, .reset 0, .update 0 [7], .finalize 0] = some [c.digest [7]] ∧
      WorldC.run (Blake2.blake2C Blake2.cfgB (Blake2.newC Blake2.cfgB 64) 64) S ⟨fun _ => none, fun _ => none⟩
        [.new 0, .update 0 a, .update 0 b, .clone 0 1, .reset 0, .finalize 1] = none ∧
      WorldC.run (Blake2.blake2C Blake2.cfgB (Blake2.newC Blake2.cfgB 64) 64) S ⟨fun _ => none, fun _ => none⟩
        [.new 0, .update 0 a, .update 0 b, .update 0 [7]] = none) := by
  obtain ⟨c, hc⟩ : ∃ c, Blake2.core Blake2.cfgB 64 = some c := Option.isSome_iff_exists.1 (by decide +kernel)
  refine ⟨c, hc, fun a b ha hb => ⟨?_, ?_, ?_⟩⟩
  · rw [C71_unsaved (.blake2b 64 c hc) S _ (by simp [Op.usesSave]), if_pos]
    · rfl
    · simp [Spec.Lens.keeps, Spec.Lens.step, setAt, ha, hb]
  · rw [C71_unsaved (.blake2b 64 c hc) S _ (by simp [Op.usesSave]), if_neg]
    simp [Spec.Lens.keeps, Spec.Lens.step, setAt, ha, hb]
  · rw [C71_unsaved (.blake2b 64 c hc) S _ (by simp [Op.usesSave]), if_neg]
    simp [Spec.Lens.keeps, Spec.Lens.step, setAt, ha, hb]

/-- BelT never panics in `update`, and after `2^133` bytes its counter has come round. -/
example (S : WrapC Belt.StateC) (a : Bytes) (ha : a.length = 2 ^ 125) (b : Bytes) (hb : b.length = 2 ^ 133) :
    WorldC.run (Belt.beltC beltBlockC) S ⟨fun _ => none, fun _ => none⟩ [.new 0, .update 0 a, .finalize 0] = none ∧
    WorldC.run (Belt.beltC beltBlockC) S ⟨fun _ => none, fun _ => none⟩ [.new 0, .update 0 b, .finalize 0] = some [(Belt.belt beltBlock).digest b] := by
  constructor
  · rw [C71_unsaved .belt S _ (by simp [Op.usesSave]), if_neg]
    simp [Spec.Lens.keeps, Spec.Lens.step, setAt, ha]
  · rw [C71_unsaved .belt S _ (by simp [Op.usesSave]), if_pos]
    · rfl
    · simp [Spec.Lens.keeps, Spec.Lens.step, setAt, hb]

/-- KangarooTwelve accepts up to 127 bytes beyond the limit in `update`, but then finalization panics; a clone taken before is not affected. -/
example (S : WrapC K12.State) (a b : Bytes) (ha : a.length = 2 ^ 77 - 1) (hb : b.length = 128) :
    WorldC.run (K12.k12C []) S ⟨fun _ => none, fun _ => none⟩ [.new 0, .update 0 a, .clone 0 1, .update 0 b, .finalize 1] = some [(K12.core []).digest a] ∧
    WorldC.run (K12.k12C []) S ⟨fun _ => none, fun _ => none⟩ [.new 0, .update 0 a, .clone 0 1, .update 0 b, .finalize 0] = none ∧
    WorldC.run (K12.k12C []) S ⟨fun _ => none, fun _ => none⟩ [.new 0, .update 0 a, .update 0 b, .update 0 [7]] = none := by
  have e : (Spec.K12.lengthEncode 0).length = 1 := by decide
  refine ⟨?_, ?_, ?_⟩
  · rw [C71_unsaved (.k12 [] (by decide)) S _ (by simp [Op.usesSave]), if_pos]
    · rfl
    · simp [Spec.Lens.keeps, Spec.Lens.step, setAt, ha, hb, e]
  · rw [C71_unsaved (.k12 [] (by decide)) S _ (by simp [Op.usesSave]), if_neg]
    simp [Spec.Lens.keeps, Spec.Lens.step, setAt, ha, hb, e]
  · rw [C71_unsaved (.k12 [] (by decide)) S _ (by simp [Op.usesSave]), if_neg]
    simp [Spec.Lens.keeps, Spec.Lens.step, setAt, ha, hb]

end Hashes
