import Verif.Leak.Xof
import Verif.Proof.Leak.Hashers
/- Extendable-output functions with observations: forgetting them, and runs that show the same. -/
namespace Hashes.Leak
variable {ρ τ ω : Type}

/-! ### Reading -/

section
variable {x : XofL ρ} {y : Rs.XofC ρ} (hb : x.bs = y.bs) (hr : ∀ r, (x.readBlock r).val = y.readBlock r)

include hr in
theorem blocksL_val (r : ρ) (l : List Bytes) : (x.blocksL r l).val = y.blocksC r l := by
  induction l generalizing r with
  | nil => rfl
  | cons b l ih =>
    simp only [XofL.blocksL, Rs.XofC.blocksC, val_bind, val_copy, val_pure, hr, ih]
    rfl
include hb hr in
theorem readRestL_val (rd : Reader ρ) (data : Bytes) : (x.restL rd data).val = y.restC rd data := by
  simp only [XofL.restL, Rs.XofC.restC, val_bind, val_branch, val_slice, val_copy, val_pure, hr, blocksL_val hr, hb]
  refine bind_congr fun o => bind_congr fun l => ?_
  split <;> rfl
include hb hr in
theorem readL_val (rd : Reader ρ) (data : Bytes) : (x.readL rd data).val = y.readC rd data := by
  simp only [XofL.readL, Rs.XofC.readC, val_bind, val_branch, val_slice, val_copy, val_pure, val_usub, readRestL_val hb hr, hb]
  refine bind_congr fun r => ?_
  split
  · refine bind_congr fun c => ?_
    split <;> rfl
  · rfl
include hb hr in
theorem readsL_val (rd : Reader ρ) (l : List Bytes) : (x.readsL rd l).val = y.readsC rd l := by
  induction l generalizing rd with
  | nil => rfl
  | cons d l ih =>
    simp only [XofL.readsL, Rs.XofC.readsC, val_bind, val_pure, readL_val hb hr, ih]
    rfl
include hb hr in
theorem xofL_val {c : CoreL τ ρ} {cc : Rs.CoreC τ ρ} (h : ∀ l, (c.runL l).val = cc.run l) (l ds : List Bytes) :
    (c.xofL x l ds).val = (cc.run l).bind fun r => y.output r ds := by
  rw [CoreL.xofL, val_bind, h]
  refine congrArg _ (funext fun r => ?_)
  rw [val_bind, readsL_val hb hr, XofL.reader, hb]
  show (Option.bind _ _) = Option.map _ _
  rw [Option.map_eq_bind]
  rfl
end

/-- Readers at the same position. -/
def SameRd (R : ρ → ρ → Prop) (a b : Reader ρ) : Prop := R a.core b.core ∧ Len a.buf b.buf ∧ a.pos = b.pos

section
variable {x : XofL ρ} {R : ρ → ρ → Prop} (hr : ∀ r r', R r r' → Rel (fun a b => Len a.1 b.1 ∧ R a.2 b.2) (x.readBlock r) (x.readBlock r'))
include hr

theorem blocksL_rel {r r' : ρ} (h : R r r') {l l' : List Bytes} (hl : Each Len l l') :
    Rel (fun a b => Len a.1 b.1 ∧ R a.2 b.2) (x.blocksL r l) (x.blocksL r' l') := by
  induction hl generalizing r r' with
  | nil => exact Rel.pure ⟨rfl, h⟩
  | cons hd _ ih =>
    refine Rel.bind (hr _ _ h) fun y y' hy => Rel.bind (Rel.copy hd rfl hd hy.1) fun b b' hb => Rel.bind (ih hy.2) fun t t' ht => Rel.pure ⟨?_, ht.2⟩
    rw [Len, List.length_append, List.length_append, show b.length = b'.length from hb, show t.1.length = t'.1.length from ht.1]

theorem readRestL_rel {a b : Reader ρ} (h : SameRd R a b) {d d' : Bytes} (hd : Len d d') :
    Rel (fun u v => Len u.1 v.1 ∧ SameRd R u.2 v.2) (x.restL a d) (x.restL b d') := by
  refine Rel.bind (blocksL_rel hr h.1 (Rel.each_chunks hd)) fun o o' ho => ?_
  refine Rel.bind (Rel.slice hd (by rw [show d.length = d'.length from hd]) hd) fun l l' hl => ?_
  have hl' : l.length = l'.length := hl
  refine Rel.branch (by rw [hl']) ?_ (Rel.pure ⟨ho.1, ho.2, h.2.1, rfl⟩)
  refine Rel.bind (hr _ _ ho.2) fun y y' hy => Rel.bind (Rel.slice hy.1 rfl hl) fun s s' hs => Rel.bind (Rel.copy hl rfl hl hs) fun t t' ht =>
    Rel.pure ⟨?_, hy.2, hy.1, hl⟩
  rw [Len, List.length_append, List.length_append, show o.1.length = o'.1.length from ho.1, show t.length = t'.length from ht]

theorem readL_rel {a b : Reader ρ} (h : SameRd R a b) {d d' : Bytes} (hd : Len d d') :
    Rel (fun u v => Len u.1 v.1 ∧ SameRd R u.2 v.2) (x.readL a d) (x.readL b d') := by
  have hd' : d.length = d'.length := hd
  refine Rel.bind (Rel.usub rfl h.2.2) fun r r' e => ?_
  subst e
  refine Rel.branch Iff.rfl ?_ (readRestL_rel hr h hd)
  refine Rel.bind (Rel.slice h.2.1 h.2.2 h.2.1) fun c c' hc => Rel.branch (by rw [hd']) ?_ ?_
  · exact Rel.bind (Rel.slice hc rfl hd) fun s s' hs => Rel.bind (Rel.copy hd rfl hd hs) fun o o' ho =>
      Rel.pure ⟨ho, h.1, h.2.1, by show a.pos + d.length = b.pos + d'.length; rw [h.2.2, hd']⟩
  · refine Rel.bind (Rel.slice hd rfl rfl) fun l l' hl => Rel.bind (Rel.slice hd rfl hd) fun t t' ht => Rel.bind (Rel.copy hl rfl rfl hc) fun l l' hl =>
      Rel.bind (readRestL_rel hr h ht) fun o o' ho => Rel.pure ⟨?_, ho.2⟩
    rw [Len, List.length_append, List.length_append, show l.length = l'.length from hl, show o.1.length = o'.1.length from ho.1]

theorem readsL_rel {a b : Reader ρ} (h : SameRd R a b) {l l' : List Bytes} (hl : Each Len l l') :
    Rel (fun u v => Len u.1 v.1 ∧ SameRd R u.2 v.2) (x.readsL a l) (x.readsL b l') := by
  induction hl generalizing a b with
  | nil => exact Rel.pure ⟨rfl, h⟩
  | cons hd _ ih =>
    refine Rel.bind (readL_rel hr h hd) fun u v hu => Rel.bind (ih hu.2) fun s t hs => Rel.pure ⟨?_, hs.2⟩
    rw [Len, List.length_append, List.length_append, show u.1.length = v.1.length from hu.1, show s.1.length = t.1.length from hs.1]
end

/-! ### Two cores -/

/-- Two cores, e.g. with different customization strings of the same length, that show the same; `R` relates the states and `S` the results. -/
structure Alike (c c' : CoreL τ ω) (R : τ → τ → Prop) (S : ω → ω → Prop) : Prop where
  pos : 0 < c.bs
  kind : c'.kind = c.kind
  bs : c'.bs = c.bs
  init : Rel R c.init c'.init
  upd : ∀ s s' l l', R s s' → SameShape c.bs l l' → Rel R (c.updateBlocks s l) (c'.updateBlocks s' l')
  fin : ∀ s s' b b', R s s' → SameFill c.kind c.bs b b' → Rel S (c.finalize s b) (c'.finalize s' b')

theorem Alike.run {c c' : CoreL τ ω} {R : τ → τ → Prop} {S : ω → ω → Prop} (h : Alike c c' R S) {l l' : List Bytes}
    (hl : l.map List.length = l'.map List.length) : Rel S (c.runL l) (c'.runL l') := by
  refine Rel.bind h.init fun s s' hs => Rel.bind (R := fun x y => SameFill c.kind c.bs x.1 y.1 ∧ R x.2 y.2) ?_ fun x y hx => h.fin _ _ _ _ hx.2 hx.1
  refine Rel.foldlM (each_of_lengths hl) ⟨by rw [h.bs]; exact SameFill.empty h.pos, hs⟩ fun x y d d' hx hd => ?_
  rw [CoreL.updateL, CoreL.updateL, h.kind, h.bs]
  exact digestBlocksL_rel h.pos hx.1 hd hx.2 h.upd

theorem Alike.quiet {c : CoreL τ ω} {R : τ → τ → Prop} {S : ω → ω → Prop} (h : Alike c c R S) : Quiet c R :=
  ⟨h.pos, h.init, h.upd, fun s s' b b' hs hb => (h.fin s s' b b' hs hb).any⟩

theorem Alike.xof {c c' : CoreL τ ρ} {R : τ → τ → Prop} {S : ρ → ρ → Prop} (h : Alike c c' R S) {x : XofL ρ}
    (hr : ∀ r r', S r r' → Rel (fun a b => Len a.1 b.1 ∧ S a.2 b.2) (x.readBlock r) (x.readBlock r')) {l l' ds ds' : List Bytes}
    (hl : l.map List.length = l'.map List.length) (hd : ds.map List.length = ds'.map List.length) :
    Rel Len (c.xofL x l ds) (c'.xofL x l' ds') :=
  Rel.bind (h.run hl) fun r r' hs => Rel.bind (readsL_rel hr (a := x.reader r) (b := x.reader r') ⟨hs, rfl, rfl⟩ (each_of_lengths hd)) fun _ _ ho => Rel.pure ho.1

end Hashes.Leak

namespace Hashes
open Leak

/-! ### TurboSHAKE, cSHAKE -/

namespace Sha3

theorem turboL_follows (f : Lanes → Lanes) {rate : Nat} (hr : 0 < rate) (d : Byte) : Leak.Follows (turboL f rate d) (turboC f rate d) where
  pos := hr
  kind := rfl
  bs := rfl
  init := by simp only [turboL, turboC, val_bind, val_check, val_pure]; rfl
  upd := fun s l hl => by
    simp only [turboL, turboC, val_bind, val_pure, blocks_val (n := rate) (fun s x _ => absorbBlockL_val f s x) s.state l hl]; rfl
  fin := fun s b _ => finalizeXofL_val ..

/-- States of the same domain. -/
def SameT (s s' : Turbo) : Prop := Both s.state s'.state ∧ s.domain = s'.domain

theorem turboL_upd {f : Lanes → Lanes} (hf : Perm f) {rate : Nat} (d d' : Byte) (s s' : Turbo) (l l' : List Bytes) (hs : SameT s s') (hl : SameShape rate l l') :
    Rel SameT ((turboL f rate d).updateBlocks s l) ((turboL f rate d').updateBlocks s' l') :=
  Rel.bind (blocks_rel (R := Both) (fun _ _ _ _ hs hx hx' => absorbBlockL_rel hf hs (hx.trans hx'.symm)) _ _ l l' hs.1 hl) fun _ _ h => Rel.pure ⟨h, hs.2⟩
theorem turboL_fin {f : Lanes → Lanes} (hf : Perm f) {rate : Nat} (d d' : Byte) (s s' : Turbo) (b b' : BlockBuffer) (hs : SameT s s') (hb : SameFill .eager rate b b') :
    Rel Both ((turboL f rate d).finalize s b) ((turboL f rate d').finalize s' b') := by
  show Rel Both (finalizeXofL f rate s.domain s.state b) (finalizeXofL f rate s'.domain s'.state b')
  rw [hs.2]
  exact finalizeXofL_rel hf rate _ hs.1 hb.1 hb.padded
theorem turboL_init {f : Lanes → Lanes} {rate : Nat} (d : Byte) : Rel SameT (turboL f rate d).init (turboL f rate d).init :=
  Rel.bind (Rel.refl _) fun _ _ _ => Rel.pure ⟨⟨rfl, rfl⟩, rfl⟩
theorem turboL_alike {f : Lanes → Lanes} (hf : Perm f) {rate : Nat} (hr : 0 < rate) (d : Byte) : Alike (turboL f rate d) (turboL f rate d) SameT Both :=
  ⟨hr, rfl, rfl, turboL_init d, turboL_upd hf d d, turboL_fin hf d d⟩

theorem shakeL_alike {f : Lanes → Lanes} (hf : Perm f) {rate : Nat} (hr : 0 < rate) (pad : Byte) : Alike (shakeL f rate pad) (shakeL f rate pad) Both Both :=
  ⟨hr, rfl, rfl, Rel.pure ⟨rfl, rfl⟩, fun s s' l l' hs hl => blocks_rel (fun _ _ _ _ hs hx hx' => absorbBlockL_rel hf hs (hx.trans hx'.symm)) s s' l l' hs hl,
    fun _ _ _ _ hs hb => finalizeXofL_rel hf rate pad hs hb.1 hb.padded⟩

theorem leftEncodeL_val (v : W64) (b : Bytes) : (leftEncodeL v b).val = leftEncodeC v b := by
  simp only [leftEncodeL, leftEncodeC, val_bind, val_copy, val_slice, val_usub, val_upd, val_pure]; rfl
theorem bitsL_val (x : Bytes) : (bitsL x).val = bitsC x := rfl
theorem feedL_val (f : Lanes → Lanes) {rate : Nat} (hr : 0 < rate) (a : BlockBuffer × Lanes) (ha : a.1.WF .eager rate) (d : Bytes) :
    (feedL f rate a d).val = feedC f rate a d :=
  digestBlocksL_val hr ha d (fun s l hl => blocks_val (fun s x _ => absorbBlockL_val f s x) s l hl) a.2
theorem feedC_wf {f : Lanes → Lanes} {rate : Nat} (hr : 0 < rate) {a b : BlockBuffer × Lanes} (ha : a.1.WF .eager rate) {d : Bytes} (h : feedC f rate a d = some b) :
    b.1.WF .eager rate := by
  obtain ⟨s, -, rfl⟩ := Option.map_eq_some_iff.mp h
  exact digestBlocks_wf hr ha d _ _

theorem bind_feed {f : Lanes → Lanes} {rate : Nat} (hr : 0 < rate) {a : BlockBuffer × Lanes} (ha : a.1.WF .eager rate) {d : Bytes} {β : Type}
    {k : BlockBuffer × Lanes → Leak β} {k' : BlockBuffer × Lanes → Option β} (h : ∀ b, b.1.WF .eager rate → (k b).val = k' b) :
    (feedL f rate a d >>= k).val = (feedC f rate a d >>= k') := by
  rw [val_bind, feedL_val f hr a ha]
  cases e : feedC f rate a d with
  | none => rfl
  | some b => exact h b (feedC_wf hr ha e)
theorem bind_val {α β : Type} {x : Leak α} {y : Option α} {k : α → Leak β} {k' : α → Option β} (hx : x.val = y) (h : ∀ a, (k a).val = k' a) :
    (x >>= k).val = (y >>= k') := by rw [val_bind, hx]; exact bind_congr h

theorem CShake.newL_val (f : Lanes → Lanes) {rate : Nat} (hr : 0 < rate) (name cust : Bytes) : (CShake.newL f rate name cust).val = CShake.newC f rate name cust := by
  rw [CShake.newL, CShake.newC, val_branch]
  split
  · rfl
  · refine bind_val (leftEncodeL_val _ _) fun e => bind_feed hr (BlockBuffer.WF.empty hr) fun a ha => bind_val (bitsL_val _) fun n =>
      bind_val (leftEncodeL_val _ _) fun e => bind_feed hr ha fun a ha => bind_feed hr ha fun a ha => bind_val (bitsL_val _) fun n =>
      bind_val (leftEncodeL_val _ _) fun e => bind_feed hr ha fun a ha => bind_feed hr ha fun a ha => bind_val (absorbBlockL_val ..) fun s => rfl

theorem cshakeL_follows (f : Lanes → Lanes) {rate : Nat} (hr : 0 < rate) (name cust : Bytes) : Leak.Follows (cshakeL f rate name cust) (cshakeC f rate name cust) where
  pos := hr
  kind := rfl
  bs := rfl
  init := CShake.newL_val f hr name cust
  upd := fun s l hl => by
    simp only [cshakeL, cshakeC, val_bind, val_pure, blocks_val (n := rate) (fun s x _ => absorbBlockL_val f s x) s.state l hl]; rfl
  fin := fun s b _ => finalizeXofL_val ..

/-- States of the same padding. -/
def SameC (s s' : CShake) : Prop := Both s.state s'.state ∧ s.padding = s'.padding

/-- What `feedL` keeps equal. -/
def SameF (rate : Nat) (a b : BlockBuffer × Lanes) : Prop := SameFill .eager rate a.1 b.1 ∧ Both a.2 b.2

theorem feedL_rel {f : Lanes → Lanes} (hf : Perm f) {rate : Nat} (hr : 0 < rate) {a b : BlockBuffer × Lanes} (h : SameF rate a b) {d d' : Bytes} (hd : Len d d') :
    Rel (SameF rate) (feedL f rate a d) (feedL f rate b d') :=
  digestBlocksL_rel hr h.1 hd h.2 fun s s' l l' hs hl => blocks_rel (fun _ _ _ _ hs hx hx' => absorbBlockL_rel hf hs (hx.trans hx'.symm)) s s' l l' hs hl

theorem CShake.newL_rel {f : Lanes → Lanes} (hf : Perm f) {rate : Nat} (hr : 0 < rate) {name name' cust cust' : Bytes} (hn : Len name name') (hc : Len cust cust') :
    Rel SameC (CShake.newL f rate name cust) (CShake.newL f rate name' cust') := by
  have e : ∀ {x y : Bytes}, Len x y → x.isEmpty = y.isEmpty := fun {x y} h => by cases x <;> cases y <;> first | rfl | cases h
  have hbits : ∀ {x y : Bytes}, Len x y → Rel Eq (bitsL x) (bitsL y) := fun {x y} h => by
    rw [bitsL, bitsL, show x.length = y.length from h]; exact Rel.refl _
  rw [CShake.newL, CShake.newL]
  refine Rel.branch (by rw [e hn, e hc]) (Rel.pure ⟨⟨rfl, rfl⟩, rfl⟩) ?_
  refine Rel.bind (Rel.refl _) fun x _ hx => ?_
  subst hx
  refine Rel.bind (feedL_rel hf hr (a := (BlockBuffer.empty rate, zero)) ⟨SameFill.empty hr, rfl, rfl⟩ rfl) fun a b ha => ?_
  refine Rel.bind (hbits hn) fun n _ h => ?_
  subst h
  refine Rel.bind (Rel.refl _) fun x _ h => ?_
  subst h
  refine Rel.bind (feedL_rel hf hr ha rfl) fun a b ha => Rel.bind (feedL_rel hf hr ha hn) fun a b ha => ?_
  refine Rel.bind (hbits hc) fun n _ h => ?_
  subst h
  refine Rel.bind (Rel.refl _) fun x _ h => ?_
  subst h
  refine Rel.bind (feedL_rel hf hr ha rfl) fun a b ha => Rel.bind (feedL_rel hf hr ha hc) fun a b ha => ?_
  exact Rel.bind (absorbBlockL_rel hf ha.2 ha.1.padded) fun _ _ h => Rel.pure ⟨h, rfl⟩

theorem cshakeL_alike {f : Lanes → Lanes} (hf : Perm f) {rate : Nat} (hr : 0 < rate) {name name' cust cust' : Bytes} (hn : Len name name') (hc : Len cust cust') :
    Alike (cshakeL f rate name cust) (cshakeL f rate name' cust') SameC Both where
  pos := hr
  kind := rfl
  bs := rfl
  init := CShake.newL_rel hf hr hn hc
  upd := fun s s' l l' hs hl =>
    Rel.bind (blocks_rel (R := Both) (fun _ _ _ _ hs hx hx' => absorbBlockL_rel hf hs (hx.trans hx'.symm)) _ _ l l' hs.1 hl) fun _ _ h => Rel.pure ⟨h, hs.2⟩
  fin := fun s s' b b' hs hb => by
    show Rel Both (finalizeXofL f rate s.padding s.state b) (finalizeXofL f rate s'.padding s'.state b')
    rw [hs.2]
    exact finalizeXofL_rel hf rate _ hs.1 hb.1 hb.padded

theorem xofL_rel {f : Lanes → Lanes} (hf : Perm f) (rate : Nat) (r r' : Lanes) (h : Both r r') :
    Rel (fun a b => Len a.1 b.1 ∧ Both a.2 b.2) ((xofL f rate).readBlock r) ((xofL f rate).readBlock r') := readBlockL_rel hf rate h
theorem xofL_reads (f : Lanes → Lanes) (rate : Nat) (r : Lanes) : ((xofL f rate).readBlock r).val = (xofC f rate).readBlock r := readBlockL_val f rate r

end Sha3

namespace Ascon
theorem xof128L_alike (P : State → State) : Alike (xof128L P) (xof128L P) Any Any :=
  ⟨show 0 < 8 by decide, rfl, rfl, Rel.pure trivial, fun s s' l l' hs hl => blocks_rel (fun _ _ _ _ _ hx hx' => absorbBlockL_rel P _ _ (hx.trans hx'.symm)) s s' l l' hs hl,
    fun _ _ _ _ _ hb => finalizeXofL_rel P _ _ hb.1 (hb.2.1.1.trans hb.2.2.1.symm)⟩
theorem readerL_rel (P : State → State) (r r' : State) (_ : Any r r') :
    Rel (fun a b => Len a.1 b.1 ∧ Any a.2 b.2) ((readerL P).readBlock r) ((readerL P).readBlock r') :=
  Rel.pure ⟨by rw [Len, length_leBytes, length_leBytes], trivial⟩
end Ascon

/-! ### KangarooTwelve -/

namespace K12
open Sha3

/-- The inner hashers' buffers are well-formed. -/
def WFs (s : State) : Prop := s.finalT.buf.WF .eager 168 ∧ s.chainT.buf.WF .eager 168

/-- The observed program does what the checked one does, and its results satisfy `P`. -/
def Ok {α : Type} (P : α → Prop) (x : Leak α) (y : Option α) : Prop := x.val = y ∧ ∀ a, y = some a → P a

section
variable {α β : Type} {P : α → Prop} {Q : β → Prop}
theorem Ok.bind {x : Leak α} {y : Option α} {k : α → Leak β} {k' : α → Option β} (h : Ok P x y) (hk : ∀ a, P a → Ok Q (k a) (k' a)) : Ok Q (x >>= k) (y >>= k') := by
  obtain ⟨h1, h2⟩ := h
  rw [Ok, val_bind, h1]
  cases y with
  | none => exact ⟨rfl, fun _ e => by cases e⟩
  | some a => exact hk a (h2 a rfl)
theorem Ok.pure {a : α} (h : P a) : Ok P (Pure.pure a) (some a) := ⟨rfl, fun _ e => Option.some.inj e ▸ h⟩
theorem Ok.any {x : Leak α} {y : Option α} (h : x.val = y) : Ok (fun _ => True) x y := ⟨h, fun _ _ => trivial⟩
theorem Ok.branch {p : Prop} [Decidable p] {a b : Leak α} {c d : Option α} (h1 : Ok P a c) (h2 : Ok P b d) : Ok P (Leak.branch p a b) (if p then c else d) := by
  rw [Ok, val_branch]
  split
  · exact h1
  · exact h2
theorem Ok.foldlM {γ : Type} {f : α → γ → Leak α} {g : α → γ → Option α} (h : ∀ s c, P s → Ok P (f s c) (g s c)) (l : List γ) (s : α) (hs : P s) :
    Ok P (l.foldlM f s) (l.foldlM g s) := by
  induction l generalizing s with
  | nil => exact .pure hs
  | cons c l ih => rw [List.foldlM_cons, List.foldlM_cons]; exact (h s c hs).bind ih
end

/-- A well-formed TurboSHAKE128 hasher. -/
def WFt (h : Hasher Turbo) : Prop := h.buf.WF .eager 168

theorem tnew_ok (d : Byte) : Ok WFt (tnewL d) (tnewC d) :=
  Ok.bind (Ok.any (turboL_follows f12 (by decide) d).init) fun _ _ => Ok.pure (BlockBuffer.WF.empty (by decide))
theorem digest_ok {σ : Type} {I : σ → Prop} {k : BufKind} {bs : Nat} (hbs : 0 < bs) {b : BlockBuffer} (wf : b.WF k bs) (input : Bytes) {f : σ → List Bytes → Leak σ}
    {g : σ → List Bytes → Option σ} (hf : ∀ s l, I s → BlocksOf bs l → (f s l).val = g s l) (hk : ∀ s l t, I s → g s l = some t → I t) {s : σ} (hs : I s) :
    Ok (fun a : BlockBuffer × σ => a.1.WF k bs ∧ I a.2) (digestBlocksL k bs b input f s)
      ((b.digestBlocks k bs input (fun (s : Option σ) l => s.bind fun s => g s l) (some s)).2.map fun t =>
        ((b.digestBlocks k bs input (fun (s : Option σ) l => s.bind fun s => g s l) (some s)).1, t)) := by
  refine ⟨digestBlocksL_valI hbs wf input hf hk s hs, fun a ha => ?_⟩
  obtain ⟨t, ht, rfl⟩ := Option.map_eq_some_iff.mp ha
  exact ⟨digestBlocks_wf hbs wf input _ _, digestBlocks_inv hk k bs b input hs ht⟩
theorem map_bind {α β γ : Type} (o : Option α) (b : β) (k : α → β → Option γ) : (o >>= fun s => k s b) = (o.map fun t => (b, t)) >>= fun a => k a.2 a.1 := by
  cases o <;> rfl

theorem tupdate_ok {h : Hasher Turbo} (wf : WFt h) (d : Bytes) : Ok WFt (tupdateL h d) (tupdateC h d) := by
  have F := turboL_follows f12 (rate := 168) (by decide) h.core.domain
  have e := digest_ok (I := fun _ => True) (k := .eager) F.pos wf d (fun s l _ => F.upd s l) (fun _ _ _ _ _ => trivial) (s := h.core) trivial
  have := Ok.bind (Q := WFt) (k := fun x => Pure.pure (Hasher.mk x.2 x.1)) (k' := fun x => some (Hasher.mk x.2 x.1)) e
    fun x hx => Ok.pure (P := WFt) (a := Hasher.mk x.2 x.1) hx.1
  rw [← map_bind (k := fun s b => some (Hasher.mk s b))] at this
  refine ⟨this.1.trans ?_, fun a ha => this.2 a (Eq.trans ?_ ha)⟩
  all_goals
    simp only [tupdateC, Rs.CoreC.updateC, Option.bind_eq_bind, Option.bind_assoc]
    rfl
theorem treader_ok {h : Hasher Turbo} (wf : WFt h) : Ok (fun x => WFt x.2) (treaderL h) (treaderC h) := by
  have F := turboL_follows f12 (rate := 168) (by decide) h.core.domain
  refine Ok.bind (Ok.any (F.fin _ _ wf)) fun s _ => ?_
  rw [Rs.CoreC.resetC]
  simp only [Option.bind_eq_bind, Option.bind_assoc]
  exact Ok.bind (Ok.any F.init) fun t _ => Ok.pure (BlockBuffer.WF.reset (by decide) wf)
theorem new_ok (cust : Bytes) : Ok WFs (newL cust) (newC cust) := (tnew_ok _).bind fun _ h => (tnew_ok _).bind fun _ h' => Ok.pure ⟨h, h'⟩
theorem lengthLoopL_val (fuel : Nat) (b : Bytes) (p n : Nat) : (lengthLoopL fuel b p n).val = lengthLoopC fuel b p n := by
  induction fuel generalizing b p n with
  | zero => rfl
  | succ fuel ih => simp only [lengthLoopL, lengthLoopC, val_branch, val_bind, val_upd, val_pure, ih]; rfl
theorem lengthEncodeL_val (n : Nat) (b : Bytes) : (lengthEncodeL n b).val = lengthEncodeC n b := by
  simp only [lengthEncodeL, lengthEncodeC, lengthLoopL_val, val_bind, val_upd, val_slice, val_copy, val_pure]; rfl
theorem marker_ok {s : State} (h : WFs s) : Ok WFt (markerL s) (markerC s) := Ok.branch (tupdate_ok h.1 _) (Ok.pure h.1)
theorem chaining_ok {s : State} (h : WFs s) : Ok WFs (processChainingChunkL s) (processChainingChunkC s) :=
  (Ok.any rfl).bind fun _ _ => (marker_ok h).bind fun _ hf => (Ok.any rfl).bind fun _ _ => (tupdate_ok h.2 _).bind fun _ ht => (treader_ok ht).bind fun _ hr =>
    (Ok.any (readL_val (x := Sha3.xofL f12 168) (y := Sha3.xofC f12 168) rfl (xofL_reads f12 168) _ _)).bind fun _ _ => (tupdate_ok hf _).bind fun _ hf => Ok.pure ⟨hf, hr⟩
theorem chunk_ok {s : State} (h : WFs s) : Ok WFs (chunkL s) (chunkC s) :=
  Ok.branch ((tupdate_ok h.1 _).bind fun _ hf => Ok.pure ⟨hf, h.2⟩) (chaining_ok h)
theorem process_ok {s : State} (h : WFs s) : Ok WFs (processChunkL s) (processChunkC s) :=
  (Ok.any rfl).bind fun _ _ => (chunk_ok h).bind fun _ hs => (Ok.any rfl).bind fun _ _ => Ok.pure hs
theorem flush_ok (p : Prop) [Decidable p] {s : State} (h : WFs s) : Ok WFs (flushL p s) (flushC p s) := Ok.branch (process_ok h) (Ok.pure h)
theorem append_ok {s : State} (h : WFs s) (n : Nat) (d : Bytes) : Ok WFs (appendL s n d) (appendC s n d) := (Ok.any rfl).bind fun _ _ => Ok.pure h
theorem updateBlock_ok {s : State} (h : WFs s) (b : Bytes) : Ok WFs (updateBlockL s b) (updateBlockC s b) := (flush_ok _ h).bind fun _ hs => append_ok hs _ _
theorem updateBlocks_ok {s : State} (h : WFs s) (l : List Bytes) : Ok WFs (updateBlocksL s l) (updateBlocksC s l) :=
  Ok.foldlM (fun _ _ hs => updateBlock_ok hs _) l s h
theorem tail_ok {s : State} (h : WFs s) (b : Bytes) : (tailL s b).val = tailC s b := by
  refine (Ok.branch (P := fun _ => True) ?_ ?_).1
  · exact (tnew_ok _).bind fun t ht => (Ok.any rfl).bind fun p _ => (tupdate_ok ht _).bind fun t ht => (treader_ok ht).bind fun r _ => Ok.pure trivial
  · exact (chaining_ok h).bind fun s hs => (Ok.any (lengthEncodeL_val _ _)).bind fun e _ => (tupdate_ok hs.1 _).bind fun f hf => (tupdate_ok hf _).bind fun f hf =>
      (treader_ok hf).bind fun r _ => Ok.pure trivial
theorem finalize_val {s : State} (h : WFs s) {b : BlockBuffer} (wf : b.WF .eager 128) : (finalizeL s b).val = finalizeC s b := by
  have D : ∀ {s : State} {b : BlockBuffer} (i : Bytes), WFs s → b.WF .eager 128 → _ := fun {s b} i hs wf =>
    digest_ok (k := .eager) (bs := 128) (by decide) wf i (fun s l hs _ => (updateBlocks_ok hs l).1) (fun s l t hs => (updateBlocks_ok hs l).2 t) hs
  have e : finalizeC s b = ((digestC s b s.customization).2.map fun t => ((digestC s b s.customization).1, t)) >>= fun a => (do
      let e ← lengthEncodeC a.2.customization.length (List.replicate 255 (0 : Byte))
      ((digestC a.2 a.1 e.2).2.map fun t => ((digestC a.2 a.1 e.2).1, t)) >>= fun a => do
        let s ← flushC (a.2.bufpos = CHUNK_SIZE ∧ a.1.pos ≠ 0) a.2
        let s ← appendC s a.1.pos a.1.content
        tailC s e.1) := by
    rw [finalizeC]
    cases (digestC s b s.customization).2 with
    | none => rfl
    | some t =>
      show (lengthEncodeC _ _ >>= _) = (lengthEncodeC _ _ >>= _)
      refine bind_congr fun x => ?_
      show ((digestC t _ x.2).2 >>= _) = _
      cases (digestC t (digestC s b s.customization).1 x.2).2 <;> rfl
  rw [e]
  refine ((D _ h wf).bind (Q := fun _ => True) fun a ha => (Ok.any (lengthEncodeL_val _ _)).bind fun e _ => (D _ ha.2 ha.1).bind fun a ha =>
    (flush_ok _ ha.2).bind fun s hs => (append_ok hs _ _).bind fun s hs => Ok.any (tail_ok hs _)).1

theorem k12L_follows (cust : Bytes) : FollowsI (k12L cust) (k12C cust) WFs where
  pos := by show 0 < 128; decide
  kind := rfl
  bs := rfl
  init := (new_ok cust).1
  start := (new_ok cust).2
  upd := fun s l hs _ => (updateBlocks_ok hs l).1
  keep := fun s l t hs => (updateBlocks_ok hs l).2 t
  fin := fun s b hs wf => finalize_val hs wf
theorem xofL_reads (r : Reader Lanes) : (xofL.readBlock r).val = xofC.readBlock r :=
  readL_val (x := Sha3.xofL f12 168) (y := Sha3.xofC f12 168) rfl (Sha3.xofL_reads f12 168) _ _

/-! Observations that depend on lengths only. -/

/-- TurboSHAKE128 hashers of the same domain with buffers filled to the same position. -/
def SameH (h h' : Hasher Turbo) : Prop := SameT h.core h'.core ∧ SameFill .eager 168 h.buf h'.buf

/-- States that differ in data only. -/
structure Same (s s' : State) : Prop where
  cust : Len s.customization s'.customization
  buffer : Len s.buffer s'.buffer
  bufpos : s.bufpos = s'.bufpos
  finalT : SameH s.finalT s'.finalT
  chainT : SameH s.chainT s'.chainT
  chain : s.chainLength = s'.chainLength

theorem tnewL_rel (d : Byte) : Rel SameH (tnewL d) (tnewL d) :=
  Rel.bind (turboL_init d) fun _ _ h => Rel.pure ⟨h, SameFill.empty (by decide)⟩
theorem tupdateL_rel {h h' : Hasher Turbo} (hh : SameH h h') {d d' : Bytes} (hd : Len d d') : Rel SameH (tupdateL h d) (tupdateL h' d') :=
  Rel.bind (R := fun x y => SameFill .eager 168 x.1 y.1 ∧ SameT x.2 y.2)
    (digestBlocksL_rel (by decide) hh.2 hd hh.1 (turboL_upd perm12 h.core.domain h'.core.domain)) fun _ _ h => Rel.pure ⟨h.2, h.1⟩
theorem treaderL_rel {h h' : Hasher Turbo} (hh : SameH h h') : Rel (fun a b => SameRd Both a.1 b.1 ∧ SameH a.2 b.2) (treaderL h) (treaderL h') := by
  refine Rel.bind (turboL_fin perm12 h.core.domain h'.core.domain _ _ _ _ hh.1 hh.2) fun s s' hs => ?_
  rw [hh.1.2]
  exact Rel.bind (turboL_init _) fun t t' ht => Rel.pure ⟨⟨hs, rfl, rfl⟩, ht, rfl, BlockBuffer.WF.reset (by decide) hh.2.2.1, BlockBuffer.WF.reset (by decide) hh.2.2.2⟩
theorem lengthEncodeL_rel {n n' : Nat} (hn : n = n') {b b' : Bytes} (hb : b = b') : Rel Eq (lengthEncodeL n b) (lengthEncodeL n' b') := by
  subst hn hb; exact Rel.refl _
theorem markerL_rel {s s' : State} (h : Same s s') : Rel SameH (markerL s) (markerL s') :=
  Rel.branch (by rw [h.chain]) (tupdateL_rel h.finalT rfl) (Rel.pure h.finalT)
theorem chainingL_rel {s s' : State} (h : Same s s') : Rel Same (processChainingChunkL s) (processChainingChunkL s') :=
  Rel.bind (Rel.check (by rw [h.bufpos])) fun _ _ _ => Rel.bind (markerL_rel h) fun _ _ hf => Rel.bind (Rel.slice h.buffer rfl h.bufpos) fun _ _ hc =>
    Rel.bind (tupdateL_rel h.chainT hc) fun _ _ ht => Rel.bind (treaderL_rel ht) fun _ _ hr =>
    Rel.bind (readL_rel (x := Sha3.xofL f12 168) (xofL_rel perm12 168) hr.1 rfl) fun _ _ hv => Rel.bind (tupdateL_rel hf hv.1) fun _ _ hf =>
    Rel.pure ⟨h.cust, h.buffer, h.bufpos, hf, hr.2, h.chain⟩
theorem chunkL_rel {s s' : State} (h : Same s s') : Rel Same (chunkL s) (chunkL s') :=
  Rel.branch (by rw [h.chain]) (Rel.bind (tupdateL_rel h.finalT h.buffer) fun _ _ hf => Rel.pure ⟨h.cust, h.buffer, h.bufpos, hf, h.chainT, h.chain⟩) (chainingL_rel h)
theorem processL_rel {s s' : State} (h : Same s s') : Rel Same (processChunkL s) (processChunkL s') :=
  Rel.bind (Rel.check (by rw [h.bufpos])) fun _ _ _ => Rel.bind (chunkL_rel h) fun _ _ hs => Rel.bind (Rel.check (by rw [hs.chain])) fun _ _ _ =>
    Rel.pure ⟨hs.cust, rfl, rfl, hs.finalT, hs.chainT, congrArg (· + 1) hs.chain⟩
theorem flushL_rel {p q : Prop} [Decidable p] [Decidable q] (hp : p ↔ q) {s s' : State} (h : Same s s') : Rel Same (flushL p s) (flushL q s') :=
  Rel.branch hp (processL_rel h) (Rel.pure h)
theorem appendL_rel {s s' : State} (h : Same s s') {n n' : Nat} (hn : n = n') {d d' : Bytes} (hd : Len d d') : Rel Same (appendL s n d) (appendL s' n' d') := by
  subst hn
  exact Rel.bind (Rel.copy h.buffer h.bufpos (by rw [h.bufpos]) hd) fun _ _ hb => Rel.pure ⟨h.cust, hb, congrArg (· + n) h.bufpos, h.finalT, h.chainT, h.chain⟩
theorem updateBlockL_rel {s s' : State} (h : Same s s') {b b' : Bytes} (hb : Len b b') : Rel Same (updateBlockL s b) (updateBlockL s' b') :=
  Rel.bind (flushL_rel (by rw [h.bufpos]) h) fun _ _ hs => appendL_rel hs rfl hb
theorem updateBlocksL_rel (s s' : State) (l l' : List Bytes) (h : Same s s') (hl : SameShape 128 l l') : Rel Same (updateBlocksL s l) (updateBlocksL s' l') :=
  blocks_rel (fun _ _ _ _ hs hx hx' => updateBlockL_rel hs (hx.trans hx'.symm)) s s' l l' h hl
theorem digestL_rel {s s' : State} (h : Same s s') {b b' : BlockBuffer} (hb : SameFill .eager 128 b b') {d d' : Bytes} (hd : Len d d') :
    Rel (fun x y => SameFill .eager 128 x.1 y.1 ∧ Same x.2 y.2) (digestL s b d) (digestL s' b' d') := digestBlocksL_rel (by decide) hb hd h updateBlocksL_rel
theorem tailL_rel {s s' : State} (h : Same s s') (b : Bytes) : Rel (SameRd Both) (tailL s b) (tailL s' b) := by
  refine Rel.branch (by rw [h.chain]) ?_ ?_
  · exact Rel.bind (tnewL_rel _) fun _ _ ht => Rel.bind (Rel.slice h.buffer rfl h.bufpos) fun _ _ hc => Rel.bind (tupdateL_rel ht hc) fun _ _ ht =>
      Rel.bind (treaderL_rel ht) fun _ _ hr => Rel.pure hr.1
  · refine Rel.bind (chainingL_rel h) fun s s' hs => Rel.bind (lengthEncodeL_rel hs.chain rfl) fun e e' he => ?_
    subst he
    exact Rel.bind (tupdateL_rel hs.finalT rfl) fun _ _ hf => Rel.bind (tupdateL_rel hf rfl) fun _ _ hf => Rel.bind (treaderL_rel hf) fun _ _ hr => Rel.pure hr.1
theorem finalizeL_rel (s s' : State) (b b' : BlockBuffer) (h : Same s s') (hb : SameFill .eager 128 b b') : Rel (SameRd Both) (finalizeL s b) (finalizeL s' b') := by
  refine Rel.bind (digestL_rel h hb h.cust) fun a a' ha => Rel.bind (lengthEncodeL_rel ha.2.cust rfl) fun e e' he => ?_
  subst he
  refine Rel.bind (digestL_rel ha.2 ha.1 rfl) fun a a' ha => Rel.bind (flushL_rel (by rw [ha.2.bufpos, ha.1.1]) ha.2) fun s s' hs => ?_
  refine Rel.bind (appendL_rel hs ha.1.1 ?_) fun s s' hs => tailL_rel hs _
  rw [Len, ha.1.2.1.length_content, ha.1.2.2.length_content, ha.1.1]

theorem k12L_alike {cust cust' : Bytes} (hc : Len cust cust') : Alike (k12L cust) (k12L cust') Same (SameRd Both) where
  pos := by show 0 < 128; decide
  kind := rfl
  bs := rfl
  init := Rel.bind (tnewL_rel _) fun _ _ hf => Rel.bind (tnewL_rel _) fun _ _ ht => Rel.pure ⟨hc, rfl, rfl, hf, ht, rfl⟩
  upd := updateBlocksL_rel
  fin := finalizeL_rel
theorem xofL_rel (r r' : Reader Lanes) (h : SameRd Both r r') : Rel (fun a b => Len a.1 b.1 ∧ SameRd Both a.2 b.2) (xofL.readBlock r) (xofL.readBlock r') :=
  readL_rel (x := Sha3.xofL f12 168) (Sha3.xofL_rel perm12 168) h rfl

end K12
end Hashes
