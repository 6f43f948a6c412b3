import Verif.Checked.Blake2Mac
import Verif.Proof.HashersPlain
import Verif.Props.Blake2
/- C70: BLAKE2 MACs in builds with overflow checks. -/
namespace Hashes
open Rs

/-- What a sequence of calls on a MAC object may do: `tag` is the MAC of a message, `limit` the number of message bytes at which
the byte counter is exhausted.  A call of `update` may fill the counter up to the limit (the bytes that reach it are still in the
buffer), a tag is computed only for messages below it. -/
def Spec.macTags (tag : Bytes → Bytes) (limit : Nat) (log : Bytes) : List Blake2.MacOp → Option (List Bytes)
  | [] => some []
  | .update d :: ops => if (log ++ d).length ≤ limit then macTags tag limit (log ++ d) ops else none
  | .reset :: ops => macTags tag limit [] ops
  | .finalizeReset :: ops => if log.length < limit then (macTags tag limit [] ops).map (tag log :: ·) else none
  | .finalizeClone :: ops => if log.length < limit then (macTags tag limit log ops).map (tag log :: ·) else none

namespace Blake2
variable {n : Nat} {c : Cfg (8 * n)} {V : Spec.Blake2.Variant (8 * n)}

/-- The checked core started in `s0`. -/
def started (c : Cfg (8 * n)) (s0 : State (8 * n)) : CoreC (State (8 * n)) Unit := plainC .lazy c.blockSize (some s0) (updateBlockC c) fun _ _ => some ()

theorem started_lawful (h : 0 < c.blockSize) (s0 : State (8 * n)) : (started c s0).core.Lawful fun _ => True where
  bs_pos := h
  nil s := by cases s <;> rfl
  app s x y := by
    cases s with
    | none => rfl
    | some s => exact (List.foldlM_append (m := Option) (f := updateBlockC c) (b := s) (l := x) (l' := y)).symm
  inv_init := trivial
  inv_update _ _ _ _ := trivial
  reset_eq _ _ := rfl
  fin_congr s b b' _ _ _ := rfl

/-- All blocks absorbed since the start: the checked counter is that of the number of bytes. -/
theorem blocksC (g : Good n c V) (hc : c.bytes = 64 ∨ c.bytes = 32) {s : State (8 * n)} {blks : List Bytes} (hb : ∀ b ∈ blks, b.length = c.blockSize) :
    blks.foldlM (updateBlockC c) s = (if s.t.toNat + blks.length * c.blockSize < 2 ^ 64 then some (updateBlocks c s blks) else none) ∧
    (s.t.toNat + blks.length * c.blockSize < 2 ^ 64 → (updateBlocks c s blks).t.toNat = s.t.toNat + blks.length * c.blockSize) := by
  have hbs := g.hbs; have h4 := g.h4; have hB := g.hb
  induction blks generalizing s with
  | nil =>
    have := s.t.isLt
    rw [if_pos (by rw [List.length_nil]; omega)]
    exact ⟨rfl, fun _ => by simp [updateBlocks]⟩
  | cons b blks ih =>
    have hl := hb b List.mem_cons_self
    have hbn : b.length < 2 ^ 64 := by omega
    rw [List.foldlM_cons, List.length_cons, Nat.add_mul blks.length 1 c.blockSize, Nat.one_mul c.blockSize]
    by_cases ht : s.t.toNat + c.blockSize < 2 ^ 64
    · have e := updateBlockC_eq (c := c) (s := s) (b := b) (by omega) hc (by omega) (by omega)
      have h1 : (updateBlocks c s [b]).t.toNat = s.t.toNat + c.blockSize := by
        show (s.t + BitVec.ofNat 64 b.length).toNat = _
        rw [BitVec.toNat_add, BitVec.toNat_ofNat]
        omega
      have hr := ih (s := updateBlocks c s [b]) fun x hx => hb x (List.mem_cons_of_mem _ hx)
      rw [e, h1] at *
      have e2 : updateBlocks c s (b :: blks) = updateBlocks c (updateBlocks c s [b]) blks := rfl
      rw [e2, show s.t.toNat + (blks.length * c.blockSize + c.blockSize) = s.t.toNat + c.blockSize + blks.length * c.blockSize by omega]
      exact hr
    · rw [if_neg (by omega)]
      refine ⟨?_, fun h => by omega⟩
      have : updateBlockC c s b = none := by
        rw [updateBlockC, Rs.add, if_neg]
        · rfl
        · rw [BitVec.toNat_ofNat]; omega
      rw [this]; rfl

theorem nFull_lazy (g : Good n c V) (hc : c.bytes = 64 ∨ c.bytes = 32) (len : Nat) :
    (nFull .lazy c.blockSize len * c.blockSize < 2 ^ 64 ↔ len ≤ 2 ^ 64) ∧ nFull .lazy c.blockSize len * c.blockSize ≤ len := by
  have h : c.blockSize = 128 ∨ c.blockSize = 64 := by have := g.hbs; have := g.hb; omega
  show ((len - 1) / c.blockSize * c.blockSize < 2 ^ 64 ↔ len ≤ 2 ^ 64) ∧ (len - 1) / c.blockSize * c.blockSize ≤ len
  rcases h with h | h <;> rw [h] <;> omega

/-- The core after the bytes absorbed since the start. -/
theorem MacRep.coreC (g : Good n c V) (hc : c.bytes = 64 ∨ c.bytes = 32) {s0 : State (8 * n)} (ht : s0.t = 0) {kb : Option Bytes} {m : Mac (8 * n)} {d : Bytes}
    (r : MacRep c s0 kb m d) :
    (started c s0).core.updateBlocks (some s0) (blocks c.blockSize (nFull .lazy c.blockSize d.length) d) = (if d.length ≤ 2 ^ 64 then some m.core else none) ∧
    (d.length ≤ 2 ^ 64 → m.core.t.toNat + m.buffer.pos = d.length) := by
  have hn := nFull_lazy g hc d.length
  have hb := blocksC g hc (s := s0) (blks := blocks c.blockSize (nFull .lazy c.blockSize d.length) d) fun b hb => length_of_mem_blocks hn.2 hb
  have e0 : s0.t.toNat = 0 := by rw [ht]; rfl
  rw [length_blocks, e0, Nat.zero_add] at hb
  obtain ⟨wf, hcore, hbuf⟩ := r.rep
  have ecore : m.core = updateBlocks c s0 (blocks c.blockSize (nFull .lazy c.blockSize d.length) d) := hcore
  refine ⟨?_, fun hd => ?_⟩
  · rw [ecore]
    refine hb.1.trans ?_
    by_cases hd : d.length ≤ 2 ^ 64
    · rw [if_pos hd, if_pos (hn.1.2 hd)]
    · rw [if_neg hd, if_neg (fun h => hd (hn.1.1 h))]
  · have el : m.buffer.pos = (d.drop (nFull .lazy c.blockSize d.length * c.blockSize)).length := by
      rw [← wf.length_content]; exact congrArg List.length hbuf
    rw [ecore, hb.2 (hn.1.2 hd), el, List.length_drop]
    omega

theorem MacRep.updateC (g : Good n c V) (hc : c.bytes = 64 ∨ c.bytes = 32) {s0 : State (8 * n)} (ht : s0.t = 0) {kb : Option Bytes} {m : Mac (8 * n)} {d : Bytes}
    (r : MacRep c s0 kb m d) (hd : d.length ≤ 2 ^ 64) (x : Bytes) :
    m.updateC c x = if (d ++ x).length ≤ 2 ^ 64 then some (m.update c x) else none := by
  have r' := r.update g x
  have h0 : 0 < c.blockSize := by have := g.hbs; have := g.h4; omega
  have R : (started c s0).core.Rep ⟨some m.core, m.buffer⟩ d := ⟨r.rep.1, ((r.coreC g hc ht).1.trans (if_pos hd)).symm, r.rep.2.2⟩
  have R' := R.update (started_lawful h0 s0) x
  have eb : (m.update c x).buffer = (m.buffer.digestBlocks .lazy c.blockSize x (fun (s : Option (State (8 * n))) blks => s.bind fun s => blks.foldlM (updateBlockC c) s) (some m.core)).1 :=
    (digestBlocks_both ..).2
  have ec : (m.buffer.digestBlocks .lazy c.blockSize x (fun (s : Option (State (8 * n))) blks => s.bind fun s => blks.foldlM (updateBlockC c) s) (some m.core)).2 =
      if (d ++ x).length ≤ 2 ^ 64 then some (m.update c x).core else none := R'.2.1.trans (r'.coreC g hc ht).1
  rw [Mac.updateC, ec, ← eb]
  split <;> rfl

theorem MacRep.finalizeC (g : Good n c V) (hc : c.bytes = 64 ∨ c.bytes = 32) {s0 : State (8 * n)} (ht : s0.t = 0) {kb : Option Bytes} {m : Mac (8 * n)} {d : Bytes}
    (r : MacRep c s0 kb m d) (hd : d.length ≤ 2 ^ 64) {out : Nat} (ho : out ≤ c.bytes) :
    m.finalizeC c out = if d.length < 2 ^ 64 then some (m.finalize c out) else none := by
  have hbs := g.hbs; have h4 := g.h4; have hB := g.hb
  have hcnt := (r.coreC g hc ht).2 hd
  have wf : m.buffer.WF .lazy c.blockSize := r.rep.1
  have hp : m.buffer.pos ≤ c.blockSize := wf.2
  rw [Mac.finalizeC]
  by_cases h : d.length < 2 ^ 64
  · rw [if_pos h]
    have hlen : (finalizeFull c m.core m.buffer).length = c.bytes := by
      rw [finalizeFull, length_bytesOfWordsLE]
      show 8 * (8 * n / 8) = c.bytes
      omega
    refine bind_ok (Blake2.finalizeC_eq (by omega) hc (by omega) (by omega) wf.1 hp (List.length_replicate ..) (by omega)) ?_
    refine bind_ok (slice_le (Nat.zero_le _) (by omega)) ?_
    rw [copy_le (Nat.zero_le _) (by rw [List.length_replicate]; exact Nat.le_refl _) (by simp; omega)]
    simp [Mac.finalize]
  · rw [if_neg h]
    have : Rs.add m.core.t (BitVec.ofNat 64 m.buffer.pos) = none := by
      rw [Rs.add, if_neg]
      rw [BitVec.toNat_ofNat]; omega
    rw [Blake2.finalizeC, this]; rfl

theorem Mac.resetC_eq (g : Good n c V) {m : Mac (8 * n)} (hkb : ∀ k, m.keyBlock = some k → k.length = c.bytes) : m.resetC c = some (m.reset c) := by
  rw [Mac.resetC, Mac.reset]
  cases h : m.keyBlock with
  | none => rfl
  | some k =>
    have := hkb k h
    refine bind_ok (bind_ok (paddedC_eq (by have := g.hbs; have := g.hb; omega)) rfl) rfl

/-- A history on a live object, in terms of the history of the model: the limit counts the key block. -/
theorem mac_runC (g : Good n c V) (hc : c.bytes = 64 ∨ c.bytes = 32) {salt persona : Bytes} {kk out : Nat} {s0 : State (8 * n)}
    (hs : newWithParams c salt persona kk out = some s0) (ho : out ≤ c.bytes) {kb : Option Bytes} (hkb : ∀ k, kb = some k → k.length = c.bytes)
    (tag : Bytes → Bytes) {limit : Nat} (hlim : limit + (startOf c kb).length = 2 ^ 64) (ops : List MacOp) {m : Mac (8 * n)} {log : Bytes}
    (htag : ∀ (m : Mac (8 * n)) (x : Bytes), MacRep c s0 kb m (startOf c kb ++ x) → x.length < limit → m.finalize c out = tag x)
    (r : MacRep c s0 kb m (startOf c kb ++ log)) (hl : log.length ≤ limit) :
    m.runC c out ops = Spec.macTags tag limit log ops := by
  have ht : s0.t = 0 ∧ s0.h0 = s0.h := by
    rcases params_eq g.h4 g.M g.hb g.head salt persona kk out with ⟨-, h0⟩ | ⟨-, s', h1, h2, h3, -⟩
    · rw [h0] at hs; cases hs
    · rw [h1] at hs; cases hs; exact ⟨h2, h3⟩
  induction ops generalizing m log with
  | nil => rfl
  | cons op ops ih =>
    have hreset := r.reset g ht.1 ht.2 hkb
    have hlen : (startOf c kb ++ log).length ≤ 2 ^ 64 := by rw [List.length_append]; omega
    have er : m.resetC c = some (m.reset c) := Mac.resetC_eq g fun k hk => hkb k (r.key.symm.trans hk)
    have ef : m.finalizeC c out = if log.length < limit then some (tag log) else none := by
      rw [r.finalizeC g hc ht.1 hlen ho]
      by_cases h : log.length < limit
      · rw [if_pos h, if_pos (by rw [List.length_append]; omega), htag m log r h]
      · rw [if_neg h, if_neg (by rw [List.length_append]; omega)]
    have ir := ih (m := m.reset c) (log := []) (by rw [List.append_nil]; exact hreset) (Nat.zero_le _)
    cases op with
    | update d =>
      rw [Mac.runC, r.updateC g hc ht.1 hlen d, Spec.macTags]
      by_cases h : (log ++ d).length ≤ limit
      · rw [if_pos h, if_pos (by rw [List.append_assoc, List.length_append]; omega)]
        have := r.update g d
        rw [List.append_assoc] at this
        exact ih this h
      · rw [if_neg h, if_neg (by rw [List.append_assoc, List.length_append]; omega)]; rfl
    | reset =>
      rw [Mac.runC, er, Spec.macTags]; exact ir
    | finalizeReset =>
      rw [Mac.runC, ef, er, Spec.macTags]
      by_cases h : log.length < limit
      · rw [if_pos h, if_pos h]
        show (Mac.runC c out (m.reset c) ops).bind _ = _
        rw [ir]; cases Spec.macTags tag limit [] ops <;> rfl
      · rw [if_neg h, if_neg h]; rfl
    | finalizeClone =>
      rw [Mac.runC, ef, Spec.macTags]
      by_cases h : log.length < limit
      · rw [if_pos h, if_pos h]
        show (Mac.runC c out m ops).bind _ = _
        rw [ih r hl]; cases Spec.macTags tag limit log ops <;> rfl
      · rw [if_neg h, if_neg h]; rfl

/-- Both kinds of objects: keyed (with a key block, whatever the key) and unkeyed. -/
theorem mac_checked (g : Good n c V) (hc : c.bytes = 64 ∨ c.bytes = 32) (hd : ∀ k < 2 ^ 64, CountOk c k) {salt persona key : Bytes} {out : Nat} {s0 : State (8 * n)}
    (hs : newWithParams c salt persona key.length out = some s0) (hk : key.length ≤ c.bytes) (ho : out ≤ c.bytes) (ops : List MacOp) :
    (key ≠ [] → Mac.runC c out ⟨s0, bufferOf (padded c.blockSize key), some (padded c.bytes key)⟩ ops =
        Spec.macTags (Spec.Blake2.hash V out key salt persona) (2 ^ 64 - c.blockSize) [] ops) ∧
    (key = [] → Mac.runC c out ⟨s0, BlockBuffer.empty c.blockSize, none⟩ ops =
        Spec.macTags (Spec.Blake2.hash V out [] salt persona) (2 ^ 64) [] ops) ∧
    (key = [] → Mac.runC c out ⟨s0, bufferOf (padded c.blockSize []), some (padded c.bytes [])⟩ ops =
        Spec.macTags (fun x => Spec.Blake2.hash V out [] salt persona (List.replicate c.blockSize 0 ++ x)) (2 ^ 64 - c.blockSize) [] ops) := by
  have hb := g.hb; have hbs := g.hbs
  have hz : Spec.Blake2.zeroPad c.blockSize (padded c.bytes key) = Spec.Blake2.zeroPad c.blockSize key := by
    rw [padded_eq hk, zeroPad_zeroPad hk (by omega)]
  have hp : (padded c.bytes key).length = c.bytes := by rw [padded_eq hk]; exact length_zeroPad hk
  have hzl : (Spec.Blake2.zeroPad c.blockSize key).length = c.blockSize := length_zeroPad (by omega)
  have K : ∀ tag : Bytes → Bytes, (∀ x, tag x = (bytesOfWordsLE (Spec.Blake2.process V (Spec.Blake2.start V (Spec.Blake2.paramBlock (8 * n) salt persona key.length out))
        (Spec.Blake2.zeroPad c.blockSize key ++ x))).take out) →
      Mac.runC c out ⟨s0, bufferOf (padded c.blockSize key), some (padded c.bytes key)⟩ ops = Spec.macTags tag (2 ^ 64 - c.blockSize) [] ops := by
    intro tag htag
    refine mac_runC g hc hs ho (kb := some (padded c.bytes key)) (fun k h => by cases h; exact hp) tag ?_ ops (fun m x r hx => ?_) ⟨?_, rfl⟩ (Nat.zero_le _)
    · show _ + (Spec.Blake2.zeroPad c.blockSize (padded c.bytes key)).length = _
      rw [hz, hzl]; omega
    · have r := r.rep
      simp only [startOf, hz] at r
      rw [htag x]
      refine congrArg _ (g.finish hs r fun k hk => hd k ?_)
      rw [List.length_append, hzl] at hk
      omega
    · simp only [startOf, hz, List.append_nil]
      rw [padded_eq (by omega)]
      exact rep_block g s0 hzl
  refine ⟨fun hne => K _ fun x => ?_, fun he => ?_, fun he => ?_⟩
  · rw [Spec.Blake2.hash, if_neg hne, ← g.M.bb]
  · subst he
    refine mac_runC g hc hs ho (kb := none) (by simp) _ (limit := 2 ^ 64) (Nat.add_zero _) ops (fun m x r hx => ?_) ⟨Core.Rep.new (g.lawful.ct 0 s0), rfl⟩ (Nat.zero_le _)
    refine (congrArg _ (g.finish hs r.rep fun k hk => hd k ?_)).trans rfl
    simp only [startOf, List.nil_append] at hk
    omega
  · subst he
    refine K _ fun x => ?_
    simp only [Spec.Blake2.hash, if_true, Spec.Blake2.zeroPad, List.nil_append, List.length_nil, Nat.sub_zero]

theorem macC_eq (g : Good n c V) (hc : c.bytes = 64 ∨ c.bytes = 32) (hd : ∀ k < 2 ^ 64, CountOk c k) {out : Nat} (ho : out ≤ 8 * n)
    (key : Option Bytes) (salt persona : Bytes) (ops : List MacOp) :
    macC c out key salt persona ops =
      if key = some [] ∨ 16 * n < (key.getD []).length ∨ 4 * n < salt.length ∨ 4 * n < persona.length then some none
      else if 8 * n < (key.getD []).length ∨ 2 * n < salt.length ∨ 2 * n < persona.length then none
      else (Spec.macTags (Spec.Blake2.hash V out (key.getD []) salt persona) (2 ^ 64 - if key = none then 0 else 16 * n) [] ops).map some := by
  have hb := g.hb; have hbs := g.hbs
  obtain ⟨h1, h2, h3⟩ := newSalt_cases g ho key salt persona
  rw [macC, newWithSaltAndPersonalC_eq (by omega) (by omega)]
  cases hm : newWithSaltAndPersonal c out key salt persona with
  | err => rw [if_pos (h1.1 hm)]; rfl
  | panic =>
    have := h3.1 hm
    rw [if_neg (by rintro (h | h); exact this.1 h; omega), if_pos (by omega)]; rfl
  | ok m =>
    have hok := h2.1 ⟨m, hm⟩
    rw [if_neg (by rintro (h | h); exact hok.1 h; omega), if_neg (by omega)]
    obtain ⟨s0, hs, hk, h⟩ := newSalt_ok g hm
    have M := mac_checked g hc hd hs hk (by omega) ops
    have e : m.runC c out ops = Spec.macTags (Spec.Blake2.hash V out (key.getD []) salt persona) (2 ^ 64 - if key = none then 0 else 16 * n) [] ops := by
      rcases h with ⟨rfl, rfl⟩ | ⟨k, rfl, hne, rfl⟩
      · rw [if_pos rfl]; exact M.2.1 rfl
      · rw [if_neg (by simp), ← hbs]; exact M.1 hne
    show (m.runC c out ops).bind _ = _
    rw [e, Option.map_eq_bind]; rfl

theorem macSliceC_eq (g : Good n c V) (hc : c.bytes = 64 ∨ c.bytes = 32) (hd : ∀ k < 2 ^ 64, CountOk c k) {out : Nat} (ho : out ≤ 8 * n)
    (key : Bytes) (ops : List MacOp) :
    macSliceC c out key ops =
      if 8 * n < key.length then some none
      else if key = [] then (Spec.macTags (fun x => Spec.Blake2.hash V out [] [] [] (List.replicate (16 * n) 0 ++ x)) (2 ^ 64 - 16 * n) [] ops).map some
      else (Spec.macTags (Spec.Blake2.hash V out key [] []) (2 ^ 64 - 16 * n) [] ops).map some := by
  have hb := g.hb; have hbs := g.hbs
  rw [macSliceC, newFromSliceC_eq (by omega) (by omega) (by omega)]
  by_cases hk : 8 * n < key.length
  · rw [if_pos hk, newFromSlice, if_pos (by omega)]; rfl
  · rw [if_neg hk, newFromSlice, if_neg (by omega)]
    rcases params_eq g.h4 g.M g.hb g.head [] [] key.length out with ⟨h1, -⟩ | ⟨-, s0, h2, -⟩
    · exact absurd ⟨by omega, ho, Nat.zero_le _, Nat.zero_le _⟩ h1
    · rw [h2]
      have M := mac_checked g hc hd h2 (by omega) (by omega) ops
      show (Mac.runC c out ⟨s0, bufferOf (padded c.blockSize key), some (padded c.bytes key)⟩ ops).bind _ = _
      by_cases he : key = []
      · rw [if_pos he]
        have := M.2.2 he
        subst he
        rw [this, Option.map_eq_bind, hbs]; rfl
      · rw [if_neg he, M.1 he, Option.map_eq_bind, hbs]; rfl

end Blake2

/-- C70. `Blake2bMac` of any output size, built by `new_with_salt_and_personal` and driven by any sequence of updates, resets,
`finalize_reset`s and cloned finalizes, in a build with overflow checks: `some none` is `Err(InvalidLength)`, `none` a panic. The
constructor's outcome is decided by the lengths alone; afterwards a panic occurs exactly at the first call for which the bytes
absorbed since the last reset, with the key block of 128 bytes, exceed what a 64-bit counter can count. -/
theorem C70_blake2bMac (out : Nat) (ho : out ≤ 64) (key : Option Bytes) (salt persona : Bytes) (ops : List Blake2.MacOp) :
    Blake2.macC Blake2.cfgB out key salt persona ops =
      if key = some [] ∨ 128 < (key.getD []).length ∨ 32 < salt.length ∨ 32 < persona.length then some none
      else if 64 < (key.getD []).length ∨ 16 < salt.length ∨ 16 < persona.length then none
      else (Spec.macTags (Spec.Blake2.hash Spec.Blake2.b out (key.getD []) salt persona) (2 ^ 64 - if key = none then 0 else 128) [] ops).map some :=
  Blake2.macC_eq Blake2.goodB (.inl rfl) (fun _ h => Blake2.countB h) ho key salt persona ops

/-- C70. `Blake2sMac`, as above with a key block of 64 bytes. -/
theorem C70_blake2sMac (out : Nat) (ho : out ≤ 32) (key : Option Bytes) (salt persona : Bytes) (ops : List Blake2.MacOp) :
    Blake2.macC Blake2.cfgS out key salt persona ops =
      if key = some [] ∨ 64 < (key.getD []).length ∨ 16 < salt.length ∨ 16 < persona.length then some none
      else if 32 < (key.getD []).length ∨ 8 < salt.length ∨ 8 < persona.length then none
      else (Spec.macTags (Spec.Blake2.hash Spec.Blake2.s out (key.getD []) salt persona) (2 ^ 64 - if key = none then 0 else 64) [] ops).map some :=
  Blake2.macC_eq Blake2.goodS (.inr rfl) (fun k _ => Blake2.countS k) ho key salt persona ops

/-- C70. `KeyInit::new_from_slice` (and `new`, which passes a key of full length and unwraps): the constructor never panics. An
empty key gives what C26 says. -/
theorem C70_newFromSlice (out : Nat) (key : Bytes) (ops : List Blake2.MacOp) :
    (out ≤ 64 → Blake2.macSliceC Blake2.cfgB out key ops =
      if 64 < key.length then some none
      else if key = [] then (Spec.macTags (fun x => Spec.Blake2.hash Spec.Blake2.b out [] [] [] (List.replicate 128 0 ++ x)) (2 ^ 64 - 128) [] ops).map some
      else (Spec.macTags (Spec.Blake2.hash Spec.Blake2.b out key [] []) (2 ^ 64 - 128) [] ops).map some) ∧
    (out ≤ 32 → Blake2.macSliceC Blake2.cfgS out key ops =
      if 32 < key.length then some none
      else if key = [] then (Spec.macTags (fun x => Spec.Blake2.hash Spec.Blake2.s out [] [] [] (List.replicate 64 0 ++ x)) (2 ^ 64 - 64) [] ops).map some
      else (Spec.macTags (Spec.Blake2.hash Spec.Blake2.s out key [] []) (2 ^ 64 - 64) [] ops).map some) :=
  ⟨fun ho => Blake2.macSliceC_eq Blake2.goodB (.inl rfl) (fun _ h => Blake2.countB h) ho key ops,
    fun ho => Blake2.macSliceC_eq Blake2.goodS (.inr rfl) (fun k _ => Blake2.countS k) ho key ops⟩

theorem Spec.macTags_eq {tag : Bytes → Bytes} {limit : Nat} (log : Bytes) (ops : List Blake2.MacOp) :
    (Spec.macTags tag limit log ops = none ∨ Spec.macTags tag limit log ops = some ((Spec.macMessages log ops).map tag)) := by
  induction ops generalizing log with
  | nil => exact .inr rfl
  | cons op ops ih =>
    cases op with
    | update d =>
      rw [Spec.macTags]
      split
      · exact ih _
      · exact .inl rfl
    | reset => exact ih []
    | finalizeReset =>
      rw [Spec.macTags]
      split
      · rcases ih [] with h | h <;> rw [h]
        · exact .inl rfl
        · exact .inr rfl
      · exact .inl rfl
    | finalizeClone =>
      rw [Spec.macTags]
      split
      · rcases ih log with h | h <;> rw [h]
        · exact .inl rfl
        · exact .inr rfl
      · exact .inl rfl

/-- C70. Whatever is returned is the list of MACs of the messages absorbed since the last reset, as in C25; and with less than
`2 ^ 64 - 128` bytes in all calls together nothing panics. -/
theorem C70_tags (tag : Bytes → Bytes) (limit : Nat) (ops : List Blake2.MacOp) :
    (∀ l, Spec.macTags tag limit [] ops = some l → l = (Spec.macMessages [] ops).map tag) ∧
    (((ops.map fun | .update d => d.length | _ => 0).sum < limit) → Spec.macTags tag limit [] ops ≠ none) := by
  refine ⟨fun l hl => ?_, ?_⟩
  · rcases Spec.macTags_eq (tag := tag) (limit := limit) [] ops with h | h <;> rw [h] at hl <;> cases hl
    rfl
  · suffices H : ∀ log : Bytes, log.length + (ops.map fun | .update d => d.length | _ => 0).sum < limit → Spec.macTags tag limit log ops ≠ none from
      fun h => H [] (by simpa using h)
    induction ops with
    | nil => intro log _; rw [Spec.macTags]; simp
    | cons op ops ih =>
      intro log h
      rw [List.map_cons, List.sum_cons] at h
      cases op with
      | update d =>
        simp only at h
        rw [Spec.macTags, if_pos (by rw [List.length_append]; omega)]
        exact ih _ (by rw [List.length_append]; omega)
      | reset => exact ih [] (by simp only [List.length_nil] at h ⊢; omega)
      | finalizeReset =>
        rw [Spec.macTags, if_pos (by omega)]
        have := ih [] (by simp only [List.length_nil] at h ⊢; omega)
        cases e : Spec.macTags tag limit [] ops with
        | none => exact absurd e this
        | some l => simp
      | finalizeClone =>
        rw [Spec.macTags, if_pos (by omega)]
        have := ih log (by simp only at h; omega)
        cases e : Spec.macTags tag limit log ops with
        | none => exact absurd e this
        | some l => simp

/-- RFC 7693-style MAC of "abc" under a one-byte key with two calls of `update`, then the MAC of the empty message after the reset;
a key of 65 bytes panics, one of 129 bytes is an error. -/
example : (Blake2.macC Blake2.cfgS 4 (some [0x6b]) [] [] [.update [0x61], .finalizeClone, .update [0x62, 0x63], .finalizeReset, .finalizeReset]).map (·.map (·.length)) = some (some 3) ∧
    Blake2.macC Blake2.cfgS 4 (some (List.replicate 33 0)) [] [] [] = none ∧
    Blake2.macC Blake2.cfgS 4 (some (List.replicate 65 0)) [] [] [] = some none := by decide +kernel

/-- The counter is exhausted by 2^64 - 64 bytes after the key block: `update` with them still works (the last block stays in the
buffer), the tag panics; a longer `update` panics itself; a reset in between saves the object. -/
example (d : Bytes) (hd : d.length = 2 ^ 64 - 64) :
    Blake2.macC Blake2.cfgS 4 (some [0x6b]) [] [] [.update d] = some (some []) ∧
    Blake2.macC Blake2.cfgS 4 (some [0x6b]) [] [] [.update d, .finalizeReset] = none ∧
    Blake2.macC Blake2.cfgS 4 (some [0x6b]) [] [] [.update d, .update [0], .reset] = none ∧
    Blake2.macC Blake2.cfgS 4 (some [0x6b]) [] [] [.update d, .reset, .finalizeReset] =
      some (some [Spec.Blake2.hash Spec.Blake2.s 4 [0x6b] [] [] []]) := by
  simp [C70_blake2sMac, Spec.macTags, hd]

end Hashes
