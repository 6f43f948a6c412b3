import Verif.Checked.Run
import Verif.Proof.Rust
import Verif.Proof.Counters
/- Runs of checked cores against runs of the model's cores. -/
namespace Hashes.Rs

/-- Two cores fed the same input. -/
def both {σ τ ω ω' : Type} (c : Core σ ω) (d : Core τ ω') : Core (σ × τ) (ω × ω') where
  kind := c.kind
  bs := c.bs
  init := (c.init, d.init)
  updateBlocks := fun s blks => (c.updateBlocks s.1 blks, d.updateBlocks s.2 blks)
  finalize := fun s b => (c.finalize s.1 b, d.finalize s.2 b)
  reset := id
  serialize := fun _ => []
  deserialize := fun _ => none
  serLen := 0

theorem digestBlocks_both {σ τ : Type} (k : BufKind) (bs : Nat) (b : BlockBuffer) (input : Bytes) (f : σ → List Bytes → σ)
    (g : τ → List Bytes → τ) (s : σ) (t : τ) :
    b.digestBlocks k bs input (fun (p : σ × τ) blks => (f p.1 blks, g p.2 blks)) (s, t) =
      ((b.digestBlocks k bs input f s).1, (b.digestBlocks k bs input f s).2, (b.digestBlocks k bs input g t).2) ∧
    (b.digestBlocks k bs input f s).1 = (b.digestBlocks k bs input g t).1 := by
  unfold BlockBuffer.digestBlocks
  by_cases hf : BlockBuffer.fits k input.length (bs - b.pos) = true
  · simp only [if_pos hf, and_self]
  · simp only [if_neg hf]
    by_cases hp : b.pos = 0
    · simp only [hp, ne_eq, not_true_eq_false, if_false]
      split <;> simp
    · simp only [ne_eq, hp, not_false_eq_true, if_true]
      split <;> simp

theorem updates_both {σ τ ω ω' : Type} {c : Core σ ω} {d : Core τ ω'} (hk : d.kind = c.kind) (hb : d.bs = c.bs) (l : List Bytes)
    (s : Hasher σ) (t : Hasher τ) (e : s.buf = t.buf) :
    (both c d).updates ⟨(s.core, t.core), s.buf⟩ l = ⟨((c.updates s l).core, (d.updates t l).core), (c.updates s l).buf⟩ ∧
      (c.updates s l).buf = (d.updates t l).buf := by
  induction l generalizing s t with
  | nil => exact ⟨rfl, e⟩
  | cons x l ih =>
    have h := digestBlocks_both c.kind c.bs s.buf x c.updateBlocks d.updateBlocks s.core t.core
    have hd : d.update t x = ⟨(s.buf.digestBlocks c.kind c.bs x d.updateBlocks t.core).2, (s.buf.digestBlocks c.kind c.bs x d.updateBlocks t.core).1⟩ := by
      rw [Core.update, hk, hb, e]
    have hr := ih (c.update s x) (d.update t x) (by rw [hd]; exact h.2)
    refine ⟨?_, hr.2⟩
    have : (both c d).update ⟨(s.core, t.core), s.buf⟩ x = ⟨((c.update s x).core, (d.update t x).core), (c.update s x).buf⟩ := by
      rw [Core.update, hd]
      show (⟨_, _⟩ : Hasher (σ × τ)) = _
      rw [show (BlockBuffer.digestBlocks (both c d).kind (both c d).bs s.buf x (both c d).updateBlocks (s.core, t.core)) = _ from h.1]
      rfl
    show (both c d).updates ((both c d).update ⟨(s.core, t.core), s.buf⟩ x) l = _
    rw [this]
    exact hr.1

/-- A checked core `cc` that fails exactly when the bookkeeping `k` fails, and otherwise does what the model's core `c` does.
`inv` holds of the states reached. -/
structure Sim {w : Nat} {σ τ ω : Type} (cc : CoreC τ ω) (c : Core σ ω) (k : Count.Book w) (rep : σ → τ) (ctr : σ → BitVec w)
    (inv : σ → Prop) : Prop where
  kind : cc.kind = c.kind
  kind' : k.kind = c.kind
  bs : cc.bs = c.bs
  bs' : k.bs = c.bs
  upd : ∀ s blks, inv s → (∀ b ∈ blks, b.length = c.bs) →
    cc.updateBlocks (rep s) blks = (k.upd (ctr s) blks.length).map fun _ => rep (c.updateBlocks s blks)
  next : ∀ s blks n, inv s → (∀ b ∈ blks, b.length = c.bs) → k.upd (ctr s) blks.length = some n →
    ctr (c.updateBlocks s blks) = n ∧ inv (c.updateBlocks s blks)
  fin : ∀ s buf, inv s → buf.WF c.kind c.bs → cc.finalize (rep s) buf = (k.fin (ctr s).toNat buf.pos).map fun _ => c.finalize s buf

/-- The buffer of a hasher is always well-formed. -/
theorem updates_wf {σ ω : Type} {inv : σ → Prop} {c : Core σ ω} (L : c.Lawful inv) (l : List Bytes) :
    (c.updates c.new l).buf.WF c.kind c.bs := ((Core.Rep.new L).updates L l).1

/-- From a state and a buffer. -/
theorem Sim.resume {w : Nat} {σ τ ω : Type} {cc : CoreC τ ω} {c : Core σ ω} {k : Count.Book w} {rep : σ → τ} {ctr : σ → BitVec w}
    {inv inv' : σ → Prop} (S : Sim cc c k rep ctr inv) (L : c.Lawful inv') (h : Hasher σ) (hs : inv h.core) (wf : h.buf.WF c.kind c.bs)
    (l : List Bytes) :
    cc.resume (rep h.core) h.buf l = (k.core.finish (k.core.updates ⟨some (ctr h.core), h.buf⟩ l)).map fun _ => c.finish (c.updates h l) := by
  have hk : k.core.kind = cc.core.kind := S.kind'.trans S.kind.symm
  have hb : k.core.bs = cc.core.bs := S.bs'.trans S.bs.symm
  have r := updates_rel_from L (d := both cc.core k.core) (fun s p => match p.2 with
      | none => p.1 = none
      | some n => p.1 = some (rep s) ∧ ctr s = n ∧ inv s) S.kind S.bs l h ⟨(some (rep h.core), some (ctr h.core)), h.buf⟩ (by
      rintro x - s ⟨t, o⟩ blks hbl - h
      cases o with
      | none => simp only at h; subst h; exact rfl
      | some n =>
        obtain ⟨h1, h2, h3⟩ := h
        simp only at h1; subst h1; subst h2
        have e : (both cc.core k.core).updateBlocks (some (rep s), some (ctr s)) blks =
          (cc.updateBlocks (rep s) blks, k.upd (ctr s) blks.length) := rfl
        rw [e, S.upd s blks h3 hbl]
        cases hu : k.upd (ctr s) blks.length with
        | none => exact rfl
        | some m => exact ⟨rfl, S.next s blks m h3 hbl hu⟩) wf rfl ⟨rfl, rfl, hs⟩
  have e := updates_both hk hb l ⟨some (rep h.core), h.buf⟩ ⟨some (ctr h.core), h.buf⟩ rfl
  rw [e.1] at r
  obtain ⟨r1, r2, wf⟩ := r
  simp only at r1 r2
  rw [CoreC.resume, ← Core.updates, Core.finish, Core.finish, Core.finish, ← e.2, ← r1]
  cases ho : (k.core.updates ⟨some (ctr h.core), h.buf⟩ l).core with
  | none =>
    rw [ho] at r2
    simp only at r2
    rw [r2]; rfl
  | some n =>
    rw [ho] at r2
    obtain ⟨h1, h2, h3⟩ := r2
    rw [h1, ← h2]
    exact S.fin _ _ h3 wf

theorem run_resume {τ ω : Type} {cc : CoreC τ ω} {t : τ} (init : cc.init = some t) (l : List Bytes) :
    cc.run l = cc.resume t (BlockBuffer.empty cc.bs) l := by
  rw [CoreC.run, CoreC.resume, Core.new, show cc.core.init = _ from init]; rfl

theorem Sim.run {w : Nat} {σ τ ω : Type} {cc : CoreC τ ω} {c : Core σ ω} {k : Count.Book w} {rep : σ → τ} {ctr : σ → BitVec w}
    {inv inv' : σ → Prop} (S : Sim cc c k rep ctr inv) (L : c.Lawful inv') (init : cc.init = some (rep c.init)) (ctr0 : ctr c.init = 0)
    (inv0 : inv c.init) (l : List Bytes) :
    cc.run l = (k.core.finish (k.core.updates k.core.new l)).map fun _ => c.finish (c.updates c.new l) := by
  have h := S.resume L c.new inv0 (Core.Rep.new L).1 l
  rw [run_resume init, S.bs]
  refine h.trans ?_
  rw [show ctr c.new.core = _ from ctr0, show k.core.new = ⟨some 0, BlockBuffer.empty k.bs⟩ from rfl, S.bs']; rfl

/-- Without a counter that can overflow: the run always succeeds. Each call gets at most as many blocks as the chunk has. -/
theorem total_resume {σ τ ω : Type} {cc : CoreC τ ω} {c : Core σ ω} (rep : σ → τ) (inv : σ → Prop) {inv' : σ → Prop} (L : c.Lawful inv')
    (kind : cc.kind = c.kind) (bs : cc.bs = c.bs) (l : List Bytes)
    (upd : ∀ x ∈ l, ∀ s blks, inv s → (∀ b ∈ blks, b.length = c.bs) → blks.length ≤ max 1 (x.length / c.bs) →
      cc.updateBlocks (rep s) blks = some (rep (c.updateBlocks s blks)) ∧ inv (c.updateBlocks s blks))
    (fin : ∀ s buf, inv s → buf.WF c.kind c.bs → cc.finalize (rep s) buf = some (c.finalize s buf))
    (h : Hasher σ) (hs : inv h.core) (wf : h.buf.WF c.kind c.bs) :
    cc.resume (rep h.core) h.buf l = some (c.finish (c.updates h l)) := by
  have r := updates_rel_from L (d := cc.core) (fun s t => t = some (rep s) ∧ inv s) kind bs l h ⟨some (rep h.core), h.buf⟩ (by
    rintro x hx s t blks hbl hn ⟨rfl, h⟩
    exact upd x hx s blks h hbl hn) wf rfl ⟨rfl, hs⟩
  rw [CoreC.resume, ← Core.updates, Core.finish, ← r.1, r.2.1.1]
  exact fin _ _ r.2.1.2 r.2.2

theorem total_run {σ τ ω : Type} {cc : CoreC τ ω} {c : Core σ ω} (rep : σ → τ) (inv : σ → Prop) {inv' : σ → Prop} (L : c.Lawful inv')
    (kind : cc.kind = c.kind) (bs : cc.bs = c.bs) (init : cc.init = some (rep c.init)) (inv0 : inv c.init) (l : List Bytes)
    (upd : ∀ x ∈ l, ∀ s blks, inv s → (∀ b ∈ blks, b.length = c.bs) → blks.length ≤ max 1 (x.length / c.bs) →
      cc.updateBlocks (rep s) blks = some (rep (c.updateBlocks s blks)) ∧ inv (c.updateBlocks s blks))
    (fin : ∀ s buf, inv s → buf.WF c.kind c.bs → cc.finalize (rep s) buf = some (c.finalize s buf)) :
    cc.run l = some (c.finish (c.updates c.new l)) := by
  rw [run_resume init, bs]
  exact total_resume rep inv L kind bs l upd fin c.new inv0 (Core.Rep.new L).1

theorem overwrite_one {l : Bytes} {i : Nat} (h : i < l.length) (v : Byte) : overwrite l i [v] = l.set i v := by
  rw [overwrite, List.set_eq_take_append_cons_drop, if_pos h]; simp

theorem digestPadC_eq {σ τ : Type} (toC : σ → τ) {bs : Nat} {b : BlockBuffer} (wf : b.WF .eager bs) (delim : Byte) {suffix : Bytes}
    (hs : suffix.length ≤ bs) {fC : τ → Bytes → Option τ} {f : σ → Bytes → σ}
    (h : ∀ s x, x.length = bs → fC (toC s) x = some (toC (f s x))) (s : σ) :
    digestPadC bs b delim suffix fC (toC s) = some (toC (b.digestPad bs delim suffix f s)) := by
  have hp : b.pos < bs := wf.2
  have l1 : ((b.padWithZeros bs).1).length = bs := by
    simp only [BlockBuffer.padWithZeros, List.length_append, List.length_replicate, List.length_take, wf.1]; omega
  unfold digestPadC BlockBuffer.digestPad
  extract_lets pos buf buf1 n
  have e1 : buf1 = (b.padWithZeros bs).1.set b.pos delim := overwrite_one (l := (b.padWithZeros bs).1) (by omega) delim
  refine bind_ok (check_of hs) <| bind_ok (upd_lt (by omega)) <| bind_ok (usub_le hs) <| bind_ok (usub_le (by omega)) <|
    bind_ok (usub_le (by omega)) ?_
  rw [← e1]
  have l2 : buf1.length = bs := by rw [e1, List.length_set, l1]
  have cp : ∀ x : Bytes, x.length = bs → copy x (bs - suffix.length) bs suffix = some (overwrite x n suffix) ∧
      (overwrite x n suffix).length = bs := by
    intro x hx
    have e : n + suffix.length = bs := by omega
    refine ⟨?_, by rw [length_overwrite (by omega), hx]⟩
    rw [copy_le (by omega) (by omega) (by omega), overwrite, e]
  show (if _ then _ else _) = _
  split
  · refine bind_ok (h s _ l2) <| bind_ok (cp _ (List.length_replicate ..)).1 ?_
    exact h _ _ (cp _ (List.length_replicate ..)).2
  · exact bind_ok (cp _ l2).1 (h _ _ (cp _ l2).2)

/-- With a closure that may panic: the padding of Model/BlockBuffer.lean over the possibly failed state. -/
theorem digestPadC_bind {τ : Type} {bs : Nat} {b : BlockBuffer} (wf : b.WF .eager bs) (delim : Byte) {suffix : Bytes}
    (hs : suffix.length ≤ bs) (fC : τ → Bytes → Option τ) (s : τ) :
    digestPadC bs b delim suffix fC s = b.digestPad bs delim suffix (fun o x => o.bind fun t => fC t x) (some s) := by
  have hp : b.pos < bs := wf.2
  have l1 : ((b.padWithZeros bs).1).length = bs := by
    simp only [BlockBuffer.padWithZeros, List.length_append, List.length_replicate, List.length_take, wf.1]; omega
  unfold digestPadC BlockBuffer.digestPad
  extract_lets pos buf buf1 n
  have e1 : buf1 = (b.padWithZeros bs).1.set b.pos delim := overwrite_one (l := (b.padWithZeros bs).1) (by omega) delim
  refine bind_ok (check_of hs) <| bind_ok (upd_lt (by omega)) <| bind_ok (usub_le hs) <| bind_ok (usub_le (by omega)) <|
    bind_ok (usub_le (by omega)) ?_
  rw [← e1]
  have l2 : buf1.length = bs := by rw [e1, List.length_set, l1]
  have cp : ∀ x : Bytes, x.length = bs → copy x (bs - suffix.length) bs suffix = some (overwrite x n suffix) := by
    intro x hx
    have e : n + suffix.length = bs := by omega
    rw [copy_le (by omega) (by omega) (by omega), overwrite, e]
  show (if _ then _ else _) = _
  split
  · show (fC s buf1).bind _ = (fC s buf1).bind _
    congr 1
    funext t
    exact bind_ok (cp _ (List.length_replicate ..)) rfl
  · exact bind_ok (cp _ l2) rfl

theorem truncateC_eq (side : TruncSide) {n : Nat} {full : Bytes} (h : n ≤ full.length) :
    truncateC side n full = some (truncate side n full) := by
  unfold truncateC truncate
  refine bind_ok (usub_le h) ?_
  cases side with
  | left =>
    refine bind_ok (slice_le (Nat.zero_le _) h) ?_
    show copy _ _ _ _ = _
    rw [copy_le (Nat.zero_le _) (by simp) (by simp [h])]; simp
  | right =>
    refine bind_ok (slice_le (by omega) (Nat.le_refl _)) ?_
    show copy _ _ _ _ = _
    rw [copy_le (Nat.zero_le _) (by simp) (by simp; omega)]
    simp only [List.take_zero, List.nil_append, Nat.sub_sub_self h]
    rw [List.drop_of_length_le (l := List.replicate n 0) (by simp), List.append_nil, List.take_of_length_le (by simp; omega)]

/-- The hashers built with `countedC`. -/
theorem counted_sim {w : Nat} {σ τ ω : Type} {k : Count.Book w} {h0 : Option τ} {comp : τ → List Bytes → Option τ}
    {out : τ → Nat → BlockBuffer → Option ω} {c : Core σ ω} (h : σ → τ) (n : σ → BitVec w)
    (hk : k.kind = c.kind) (hb : k.bs = c.bs)
    (comp_ok : ∀ s blks, (∀ b ∈ blks, b.length = c.bs) → comp (h s) blks = some (h (c.updateBlocks s blks)))
    (cnt : ∀ s blks m, k.upd (n s) blks.length = some m → n (c.updateBlocks s blks) = m)
    (out_ok : ∀ s buf v, buf.WF c.kind c.bs → k.fin (n s).toNat buf.pos = some v → out (h s) v buf = some (c.finalize s buf)) :
    Sim (countedC k h0 comp out) c k (fun s => (h s, n s)) n (fun _ => True) := by
  refine ⟨hk, hk, hb, hb, ?_, ?_, ?_⟩
  · intro s blks _ hbl
    simp only [countedC]
    cases hu : k.upd (n s) blks.length with
    | none => rfl
    | some m => rw [cnt s blks m hu]; exact bind_ok rfl (bind_ok (comp_ok s blks hbl) rfl)
  · exact fun s blks m _ _ hu => ⟨cnt s blks m hu, trivial⟩
  · intro s buf _ wf
    simp only [countedC]
    cases hv : k.fin (n s).toNat buf.pos with
    | none => rfl
    | some v => exact bind_ok rfl (out_ok s buf v wf hv)

theorem bump_some {w : Nat} {n m : BitVec w} {j : Nat} (h : Count.bump w n j = some m) : n + BitVec.ofNat w j = m := by
  unfold Count.bump Count.add at h
  split at h
  · injection h with h
    rw [← h, BitVec.ofNat_add, BitVec.ofNat_toNat, BitVec.setWidth_eq]
  · cases h

theorem wbump_some {w : Nat} {n m : BitVec w} {j : Nat} (h : Count.wbump w n j = some m) : n + BitVec.ofNat w j = m :=
  Option.some.inj h

theorem mul_some {w a b v : Nat} (h : Count.mul w a b = some v) : v = a * b := by
  unfold Count.mul at h; split at h <;> simp_all

theorem add_some {w a b v : Nat} (h : Count.add w a b = some v) : v = a + b := by
  unfold Count.add at h; split at h <;> simp_all

/-- The checked length expression has the value of the wrapping one. -/
theorem bitLen_some {w bs n pos v : Nat} (h : Count.bitLen w bs n pos = some v) : v = 8 * (pos + bs * n) := by
  unfold Count.bitLen at h
  cases h1 : Count.mul w bs n with
  | none => rw [h1] at h; cases h
  | some x =>
    rw [h1, Option.bind_some] at h
    cases h2 : Count.add w pos x with
    | none => rw [h2] at h; cases h
    | some y =>
      rw [h2, Option.bind_some] at h
      rw [mul_some h, add_some h2, mul_some h1]

theorem bitLen_bv {w bs pos v : Nat} {n : BitVec w} (h : Count.bitLen w bs n.toNat pos = some v) :
    BitVec.ofNat w v = (8 : BitVec w) * (BitVec.ofNat w pos + BitVec.ofNat w bs * n) := by
  rw [bitLen_some h, BitVec.ofNat_mul, BitVec.ofNat_add, BitVec.ofNat_mul, BitVec.ofNat_toNat, BitVec.setWidth_eq]
  rfl

end Hashes.Rs
