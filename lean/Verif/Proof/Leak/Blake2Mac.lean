import Verif.Leak.Blake2Mac
import Verif.Proof.Leak.Run
/- BLAKE2 MACs with observations: forgetting them, runs that show the same, lengths that are shown. -/
namespace Hashes.Blake2
open Leak
variable {w : Nat} {c : Cfg w}

/-! ### Forgetting the observations -/

theorem twoWordsL_val (w length full : Nat) (x : Bytes) : (twoWordsL w length full x).val = twoWordsC w length full x := by
  simp only [twoWordsL, twoWordsC, val_branch, val_bind, val_loop, val_idx, val_upd, val_slice, val_fromLe, val_pure]; rfl
theorem newWithParamsL_val (c : Cfg w) (salt persona : Bytes) (k o : Nat) : (newWithParamsL c salt persona k o).val = newWithParamsC c salt persona k o := by
  simp only [newWithParamsL, newWithParamsC, val_bind, val_check, val_shl, twoWordsL_val, val_pure]; rfl
theorem paddedL_val (n : Nat) (k : Bytes) : (paddedL n k).val = paddedC n k := rfl
theorem keyBlockL_val (n : Nat) (k : Option Bytes) : (keyBlockL n k).val = keyBlockC n k := by
  cases k <;> simp only [keyBlockL, keyBlockC, val_bind, val_emit, paddedL_val, val_pure] <;> rfl
theorem keyBufferL_val (n : Nat) (k : Option Bytes) : (keyBufferL n k).val = keyBufferC n k := by
  cases k <;> simp only [keyBufferL, keyBufferC, val_bind, val_emit, paddedL_val, val_pure] <;> rfl
theorem invalidL_val (bs : Nat) (key : Option Bytes) (salt persona : Bytes) : (invalidL bs key salt persona).val =
    some (decide (key.isSome ∧ keyLen key = 0 ∨ keyLen key > bs ∨ salt.length > bs / 4 ∨ persona.length > bs / 4)) := by
  simp only [invalidL, val_branch, val_pure]
  by_cases h1 : key.isSome = true <;> by_cases h2 : keyLen key = 0 <;> by_cases h3 : keyLen key > bs <;> by_cases h4 : salt.length > bs / 4 <;>
    by_cases h5 : persona.length > bs / 4 <;> simp [h1, h2, h3, h4, h5] <;> omega
theorem newWithSaltAndPersonalL_val (c : Cfg w) (o : Nat) (key : Option Bytes) (salt persona : Bytes) :
    (newWithSaltAndPersonalL c o key salt persona).val = newWithSaltAndPersonalC c o key salt persona := by
  rw [newWithSaltAndPersonalL, newWithSaltAndPersonalC, val_bind, invalidL_val]
  show (if _ then _ else _ : Leak _).val = _
  by_cases h : key.isSome ∧ keyLen key = 0 ∨ keyLen key > c.blockSize ∨ salt.length > c.blockSize / 4 ∨ persona.length > c.blockSize / 4
  · rw [if_pos h, if_pos (decide_eq_true h)]; rfl
  · rw [if_neg h, if_neg (by simpa using h)]
    simp only [val_bind, keyBufferL_val, newWithParamsL_val, keyBlockL_val, val_pure]; rfl
theorem newFromSliceL_val (c : Cfg w) (o : Nat) (key : Bytes) : (newFromSliceL c o key).val = newFromSliceC c o key := by
  simp only [newFromSliceL, newFromSliceC, val_branch, val_bind, paddedL_val, newWithParamsL_val, val_pure]; rfl

theorem paddedC_length {n : Nat} {k t : Bytes} (h : paddedC n k = some t) : t.length = n := by
  rw [paddedC, Rs.copy] at h
  split at h
  · next hc =>
    cases h
    simp only [List.length_replicate] at hc
    simp; omega
  · cases h
theorem bufferOf_wf {n : Nat} {t : Bytes} (h : t.length = n) : (bufferOf t).WF .lazy n := ⟨h, Nat.le_of_eq h⟩
theorem empty_wf (n : Nat) : (BlockBuffer.empty n).WF .lazy n := ⟨List.length_replicate, Nat.zero_le _⟩
theorem keyBufferC_wf {n : Nat} {k : Option Bytes} {b : BlockBuffer} (h : keyBufferC n k = some b) : b.WF .lazy n := by
  cases k with
  | none => cases h; exact empty_wf n
  | some k =>
    obtain ⟨t, ht, h⟩ := Option.bind_eq_some_iff.mp h
    cases h; exact bufferOf_wf (paddedC_length ht)
theorem newSaltC_wf {o : Nat} {key : Option Bytes} {salt persona : Bytes} {m : Mac w}
    (h : newWithSaltAndPersonalC c o key salt persona = some (some m)) : m.buffer.WF .lazy c.blockSize := by
  rw [newWithSaltAndPersonalC] at h
  split at h
  · cases h
  · obtain ⟨b, hb, h⟩ := Option.bind_eq_some_iff.mp h
    obtain ⟨_, -, h⟩ := Option.bind_eq_some_iff.mp h
    obtain ⟨_, -, h⟩ := Option.bind_eq_some_iff.mp h
    cases h; exact keyBufferC_wf hb
theorem newSliceC_wf {o : Nat} {key : Bytes} {m : Mac w} (h : newFromSliceC c o key = some (some m)) : m.buffer.WF .lazy c.blockSize := by
  rw [newFromSliceC] at h
  split at h
  · cases h
  · obtain ⟨b, hb, h⟩ := Option.bind_eq_some_iff.mp h
    obtain ⟨_, -, h⟩ := Option.bind_eq_some_iff.mp h
    obtain ⟨_, -, h⟩ := Option.bind_eq_some_iff.mp h
    cases h; exact bufferOf_wf (paddedC_length hb)

theorem Mac.updateL_val (hc : 0 < c.blockSize) {m : Mac w} (wf : m.buffer.WF .lazy c.blockSize) (d : Bytes) : (m.updateL c d).val = m.updateC c d := by
  rw [Mac.updateL, val_bind, digestBlocksL_val hc wf d (g := fun s blks => blks.foldlM (updateBlockC c) s) fun s l _ => by
    rw [val_foldlM]; simp only [updateBlockL_val]]
  rw [Mac.updateC]
  cases (m.buffer.digestBlocks .lazy c.blockSize d (fun (s : Option (State w)) blks => s.bind fun s => blks.foldlM (updateBlockC c) s) (some m.core)).2 <;> rfl
theorem Mac.updateC_wf (hc : 0 < c.blockSize) {m m' : Mac w} (wf : m.buffer.WF .lazy c.blockSize) {d : Bytes} (h : m.updateC c d = some m') :
    m'.buffer.WF .lazy c.blockSize := by
  obtain ⟨_, -, h⟩ := Option.bind_eq_some_iff.mp h
  cases h; exact digestBlocks_wf hc wf _ _ _
theorem Mac.finalizeL_val (c : Cfg w) (o : Nat) (m : Mac w) : (m.finalizeL c o).val = m.finalizeC c o := by
  simp only [Mac.finalizeL, Mac.finalizeC, val_bind, Blake2.finalizeL_val, val_slice, val_copy]
theorem Mac.resetL_val (c : Cfg w) (m : Mac w) : (m.resetL c).val = m.resetC c := by
  simp only [Mac.resetL, Mac.resetC, val_bind, keyBufferL_val, val_pure]; rfl
theorem Mac.resetC_wf {m m' : Mac w} (h : m.resetC c = some m') : m'.buffer.WF .lazy c.blockSize := by
  obtain ⟨_, hb, h⟩ := Option.bind_eq_some_iff.mp h
  cases h; exact keyBufferC_wf hb

theorem Mac.runL_val (hc : 0 < c.blockSize) (o : Nat) (ops : List MacOp) {m : Mac w} (wf : m.buffer.WF .lazy c.blockSize) :
    (m.runL c o ops).val = m.runC c o ops := by
  induction ops generalizing m with
  | nil => rfl
  | cons op ops ih =>
    have hr : ∀ {β : Type} (f : Mac w → Leak β) (g : Mac w → Option β), (∀ m, m.buffer.WF .lazy c.blockSize → (f m).val = g m) →
        ((m.resetL c).val >>= fun m => (f m).val) = (m.resetC c >>= g) := by
      intro β f g hfg
      rw [Mac.resetL_val]
      cases h : m.resetC c with
      | none => rfl
      | some m' => exact hfg m' (Mac.resetC_wf h)
    cases op with
    | update d =>
      rw [Mac.runL, Mac.runC, val_bind, Mac.updateL_val hc wf]
      cases h : m.updateC c d with
      | none => rfl
      | some m' => exact ih (Mac.updateC_wf hc wf h)
    | reset =>
      rw [Mac.runL, Mac.runC, val_bind]
      exact hr _ _ fun m wf => ih wf
    | finalizeReset =>
      rw [Mac.runL, Mac.runC, val_bind, Mac.finalizeL_val]
      refine bind_congr fun t => ?_
      rw [val_bind]
      refine hr _ _ fun m wf => ?_
      rw [val_bind, ih wf]; rfl
    | finalizeClone =>
      rw [Mac.runL, Mac.runC, val_bind, Mac.finalizeL_val]
      refine bind_congr fun t => ?_
      rw [val_bind, ih wf]; rfl

theorem macL_val (hc : 0 < c.blockSize) (o : Nat) (key : Option Bytes) (salt persona : Bytes) (ops : List MacOp) :
    (macL c o key salt persona ops).val = macC c o key salt persona ops := by
  rw [macL, macC, val_bind, newWithSaltAndPersonalL_val]
  cases h : newWithSaltAndPersonalC c o key salt persona with
  | none => rfl
  | some r =>
    cases r with
    | none => rfl
    | some m =>
      show (thenRunL c o ops (some m)).val = (m.runC c o ops).bind _
      rw [thenRunL, val_bind, Mac.runL_val hc o ops (newSaltC_wf h)]; rfl
theorem macSliceL_val (hc : 0 < c.blockSize) (o : Nat) (key : Bytes) (ops : List MacOp) : (macSliceL c o key ops).val = macSliceC c o key ops := by
  rw [macSliceL, macSliceC, val_bind, newFromSliceL_val]
  cases h : newFromSliceC c o key with
  | none => rfl
  | some r =>
    cases r with
    | none => rfl
    | some m =>
      show (thenRunL c o ops (some m)).val = (m.runC c o ops).bind _
      rw [thenRunL, val_bind, Mac.runL_val hc o ops (newSliceC_wf h)]; rfl

/-! ### Runs that show the same -/

theorem twoWordsL_rel (w length : Nat) {full full' : Nat} {x y : Bytes} (hf : full = full') (h : Len x y) :
    Rel Any (twoWordsL w length full x) (twoWordsL w length full' y) := by
  subst hf
  have h' : x.length = y.length := h
  have words : ∀ {p q : Bytes} (i j i' j' k k' : Nat), Len p q → i = i' → j = j' → k = k' →
      Rel Any (do let a ← slice p 0 i; let a ← fromLe w a; let b ← slice p j k; let b ← fromLe w b; pure (⟨a, b⟩ : V2 (BitVec w)))
        (do let a ← slice q 0 i'; let a ← fromLe w a; let b ← slice q j' k'; let b ← fromLe w b; pure (⟨a, b⟩ : V2 (BitVec w))) := by
    intro p q i j i' j' k k' hp hi hj hk
    exact Rel.bind (Rel.slice hp rfl hi) fun _ _ h1 => Rel.bind (Rel.fromLe h1) fun _ _ _ => Rel.bind (Rel.slice hp hj hk) fun _ _ h2 =>
      Rel.bind (Rel.fromLe h2) fun _ _ _ => Rel.pure trivial
  refine Rel.branch (by rw [h']) ?_ (words _ _ _ _ _ _ h rfl rfl h')
  refine Rel.bind (R := Len) (Rel.loop h' rfl fun p q i hp => Rel.bind (Rel.idx h rfl) fun _ _ _ => Rel.upd hp rfl) fun p q hp => ?_
  exact words _ _ _ _ _ _ hp rfl rfl hp
theorem newWithParamsL_rel (c : Cfg w) {salt salt' persona persona' : Bytes} (k o : Nat) (hs : Len salt salt') (hp : Len persona persona') :
    Rel (fun s s' => s.t = s'.t) (newWithParamsL c salt persona k o) (newWithParamsL c salt' persona' k o) := by
  have hs' : salt.length = salt'.length := hs
  have hp' : persona.length = persona'.length := hp
  refine Rel.bind (Rel.refl _) fun _ _ _ => Rel.bind (Rel.refl _) fun _ _ _ => Rel.bind (Rel.check (by rw [hs'])) fun _ _ _ =>
    Rel.bind (Rel.check (by rw [hp'])) fun _ _ _ => Rel.bind (Rel.refl _) fun _ _ _ => ?_
  exact Rel.bind (twoWordsL_rel w _ (by rw [hs']) hs) fun _ _ _ => Rel.bind (twoWordsL_rel w _ rfl hp) fun _ _ _ => Rel.pure rfl

/-- Keys of the same length, or none. -/
def SameKey : Option Bytes → Option Bytes → Prop
  | some k, some k' => Len k k'
  | none, none => True
  | _, _ => False

theorem SameKey.keyLen {k k' : Option Bytes} (h : SameKey k k') : keyLen k = keyLen k' := by
  cases k <;> cases k' <;> first | exact h | rfl | exact h.elim
theorem SameKey.isSome {k k' : Option Bytes} (h : SameKey k k') : k.isSome = k'.isSome := by
  cases k <;> cases k' <;> first | rfl | exact h.elim

theorem paddedL_rel (n : Nat) {k k' : Bytes} (h : Len k k') : Rel (fun t t' => t.length = n ∧ t'.length = n) (paddedL n k) (paddedL n k') := by
  have h' : k.length = k'.length := h
  have := Rel.copy (l := List.replicate n (0 : Byte)) (l' := List.replicate n 0) (i := 0) (i' := 0) rfl rfl h' h
  refine ⟨this.1, ?_⟩
  have hv := this.2
  change Option.Rel _ (paddedC n k) (paddedC n k') at hv
  show Option.Rel _ (paddedC n k) (paddedC n k')
  cases hx : paddedC n k <;> cases hy : paddedC n k' <;> rw [hx, hy] at hv <;> cases hv
  · exact .none
  · exact .some ⟨paddedC_length hx, paddedC_length hy⟩
theorem keyBlockL_rel (n : Nat) {k k' : Option Bytes} (h : SameKey k k') : Rel SameKey (keyBlockL n k) (keyBlockL n k') := by
  cases k <;> cases k' <;> try exact h.elim
  · exact Rel.bind (Rel.refl _) fun _ _ _ => Rel.pure trivial
  · exact Rel.bind (Rel.refl _) fun _ _ _ => Rel.bind (paddedL_rel n h) fun _ _ ht => Rel.pure (ht.1.trans ht.2.symm)
theorem keyBufferL_rel (n : Nat) {k k' : Option Bytes} (h : SameKey k k') : Rel (SameFill .lazy n) (keyBufferL n k) (keyBufferL n k') := by
  cases k <;> cases k' <;> try exact h.elim
  · exact Rel.bind (Rel.refl _) fun _ _ _ => Rel.pure ⟨rfl, empty_wf n, empty_wf n⟩
  · exact Rel.bind (Rel.refl _) fun _ _ _ => Rel.bind (paddedL_rel n h) fun _ _ ht => Rel.pure ⟨ht.1.trans ht.2.symm, bufferOf_wf ht.1, bufferOf_wf ht.2⟩

/-- Objects that have seen the same lengths. -/
structure SameMac (c : Cfg w) (m m' : Mac w) : Prop where
  t : m.core.t = m'.core.t
  fill : SameFill .lazy c.blockSize m.buffer m'.buffer
  key : SameKey m.keyBlock m'.keyBlock

/-- Both errors, or objects that have seen the same lengths. -/
def SameNew (c : Cfg w) : Option (Mac w) → Option (Mac w) → Prop
  | some m, some m' => SameMac c m m'
  | none, none => True
  | _, _ => False

theorem invalidL_rel (bs : Nat) {key key' : Option Bytes} {salt salt' persona persona' : Bytes} (hk : SameKey key key') (hs : Len salt salt') (hp : Len persona persona') :
    invalidL bs key salt persona = invalidL bs key' salt' persona' := by
  rw [invalidL, invalidL, show salt.length = salt'.length from hs, show persona.length = persona'.length from hp, hk.keyLen, hk.isSome]

theorem newWithSaltAndPersonalL_rel (c : Cfg w) (o : Nat) {key key' : Option Bytes} {salt salt' persona persona' : Bytes} (hk : SameKey key key')
    (hs : Len salt salt') (hp : Len persona persona') :
    Rel (SameNew c) (newWithSaltAndPersonalL c o key salt persona) (newWithSaltAndPersonalL c o key' salt' persona') := by
  rw [newWithSaltAndPersonalL, newWithSaltAndPersonalL, invalidL_rel _ hk hs hp]
  refine Rel.bind (Rel.refl _) fun e _ he => ?_
  subst he
  split
  · exact Rel.pure trivial
  · rw [hk.keyLen]
    exact Rel.bind (keyBufferL_rel _ hk) fun _ _ hb => Rel.bind (newWithParamsL_rel c _ _ hs hp) fun _ _ ht =>
      Rel.bind (keyBlockL_rel _ hk) fun _ _ hk => Rel.pure ⟨ht, hb, hk⟩
theorem newFromSliceL_rel (c : Cfg w) (o : Nat) {key key' : Bytes} (hk : Len key key') : Rel (SameNew c) (newFromSliceL c o key) (newFromSliceL c o key') := by
  have hk' : key.length = key'.length := hk
  refine Rel.branch (by rw [hk']) (Rel.pure trivial) ?_
  rw [hk']
  exact Rel.bind (paddedL_rel _ hk) fun _ _ hb => Rel.bind (newWithParamsL_rel c _ _ rfl rfl) fun _ _ ht =>
    Rel.bind (paddedL_rel _ hk) fun _ _ hk => Rel.pure ⟨ht, ⟨hb.1.trans hb.2.symm, bufferOf_wf hb.1, bufferOf_wf hb.2⟩, hk.1.trans hk.2.symm⟩

theorem Mac.updateL_rel (hc : 0 < c.blockSize) {m m' : Mac w} (h : SameMac c m m') {d d' : Bytes} (hd : Len d d') :
    Rel (SameMac c) (m.updateL c d) (m'.updateL c d') :=
  Rel.bind (digestBlocksL_rel hc h.fill hd h.t fun _ _ _ _ hs hl => Rel.foldlM hl.each hs fun _ _ _ _ hs hb => updateBlockL_rel c hs hb)
    fun _ _ hx => Rel.pure ⟨hx.2, hx.1, h.key⟩
theorem Mac.finalizeL_rel {m m' : Mac w} (h : SameMac c m m') (o : Nat) : Rel Len (m.finalizeL c o) (m'.finalizeL c o) :=
  Rel.bind (Blake2.finalizeL_rel c h.t h.fill.1 h.fill.padded rfl) fun _ _ hf => Rel.bind (Rel.slice hf rfl rfl) fun _ _ hs => Rel.copy rfl rfl rfl hs
theorem Mac.resetL_rel {m m' : Mac w} (h : SameMac c m m') : Rel (SameMac c) (m.resetL c) (m'.resetL c) :=
  Rel.bind (keyBufferL_rel _ h.key) fun _ _ hb => Rel.pure ⟨rfl, hb, h.key⟩

/-- The same calls on inputs of the same lengths. -/
inductive SameOp : MacOp → MacOp → Prop
  | update {d d' : Bytes} : Len d d' → SameOp (.update d) (.update d')
  | reset : SameOp .reset .reset
  | finalizeReset : SameOp .finalizeReset .finalizeReset
  | finalizeClone : SameOp .finalizeClone .finalizeClone

theorem Mac.runL_rel (hc : 0 < c.blockSize) (o : Nat) {ops ops' : List MacOp} (ho : Each SameOp ops ops') {m m' : Mac w} (h : SameMac c m m') :
    Rel (Each Len) (m.runL c o ops) (m'.runL c o ops') := by
  induction ho generalizing m m' with
  | nil => exact Rel.pure .nil
  | cons hop _ ih =>
    cases hop with
    | update hd => exact Rel.bind (Mac.updateL_rel hc h hd) fun _ _ hm => ih hm
    | reset => exact Rel.bind (Mac.resetL_rel h) fun _ _ hm => ih hm
    | finalizeReset => exact Rel.bind (Mac.finalizeL_rel h o) fun _ _ ht => Rel.bind (Mac.resetL_rel h) fun _ _ hm => Rel.bind (ih hm) fun _ _ hl => Rel.pure (.cons ht hl)
    | finalizeClone => exact Rel.bind (Mac.finalizeL_rel h o) fun _ _ ht => Rel.bind (ih h) fun _ _ hl => Rel.pure (.cons ht hl)

/-- Both errors, or tags of the same lengths. -/
def SameTags : Option (List Bytes) → Option (List Bytes) → Prop
  | some l, some l' => Each Len l l'
  | none, none => True
  | _, _ => False

theorem thenRunL_rel (hc : 0 < c.blockSize) (o : Nat) {ops ops' : List MacOp} (ho : Each SameOp ops ops') {r r' : Option (Mac w)} (h : SameNew c r r') :
    Rel SameTags (thenRunL c o ops r) (thenRunL c o ops' r') := by
  cases r <;> cases r' <;> try exact h.elim
  · exact Rel.pure trivial
  · exact Rel.bind (Mac.runL_rel hc o ho h) fun _ _ hl => Rel.pure hl
theorem macL_rel (hc : 0 < c.blockSize) (o : Nat) {key key' : Option Bytes} {salt salt' persona persona' : Bytes} {ops ops' : List MacOp} (hk : SameKey key key')
    (hs : Len salt salt') (hp : Len persona persona') (ho : Each SameOp ops ops') :
    Rel SameTags (macL c o key salt persona ops) (macL c o key' salt' persona' ops') :=
  Rel.bind (newWithSaltAndPersonalL_rel c o hk hs hp) fun _ _ h => thenRunL_rel hc o ho h
theorem macSliceL_rel (hc : 0 < c.blockSize) (o : Nat) {key key' : Bytes} {ops ops' : List MacOp} (hk : Len key key') (ho : Each SameOp ops ops') :
    Rel SameTags (macSliceL c o key ops) (macSliceL c o key' ops') :=
  Rel.bind (newFromSliceL_rel c o hk) fun _ _ h => thenRunL_rel hc o ho h

/-! ### Lengths that are shown -/

/-- The same calls, on whatever inputs. -/
inductive SameCall : MacOp → MacOp → Prop
  | update {d d' : Bytes} : SameCall (.update d) (.update d')
  | reset : SameCall .reset .reset
  | finalizeReset : SameCall .finalizeReset .finalizeReset
  | finalizeClone : SameCall .finalizeClone .finalizeClone

theorem Mac.runL_reads (hc : 0 < c.blockSize) (o : Nat) {ops ops' : List MacOp} (ho : Each SameCall ops ops') {m m' : Mac w} (h : SameMac c m m') :
    Reads (fun _ _ => Each SameOp ops ops') (m.runL c o ops) (m'.runL c o ops') := by
  induction ho generalizing m m' with
  | nil => exact Reads.pure .nil
  | cons hop _ ih =>
    cases hop with
    | @update d d' =>
      refine Reads.bind (Q := fun x y => Len d d' ∧ SameMac c x y) ?_ fun _ _ _ _ hm => (ih hm.2).mono fun _ _ _ _ hl => .cons (.update hm.1) hl
      refine Reads.of_obs (p := Len d d') (fun r r' he => ?_) fun hd => (Mac.updateL_rel hc h hd).reads.mono fun _ _ _ _ hm => ⟨hd, hm⟩
      rw [Mac.updateL, Mac.updateL, obs_bind, obs_bind, List.append_assoc, List.append_assoc] at he
      exact digestBlocksL_len hc h.fill he
    | reset => exact Reads.bind (Mac.resetL_rel h).reads fun _ _ _ _ hm => (ih hm).mono fun _ _ _ _ hl => .cons .reset hl
    | finalizeReset =>
      exact Reads.bind (Mac.finalizeL_rel h o).reads fun _ _ _ _ _ => Reads.bind (Mac.resetL_rel h).reads fun _ _ _ _ hm =>
        Reads.bind (ih hm) fun _ _ _ _ hl => Reads.pure (.cons .finalizeReset hl)
    | finalizeClone =>
      exact Reads.bind (Mac.finalizeL_rel h o).reads fun _ _ _ _ _ => Reads.bind (ih h) fun _ _ _ _ hl => Reads.pure (.cons .finalizeClone hl)

/-- The front of what a run shows, whether it returns or not. -/
theorem front {α β γ δ : Type} {x : Leak α} {y : Leak β} {f : α → Leak γ} {g : β → Leak δ} {r r' : List Obs} (h : (x >>= f).obs ++ r = (y >>= g).obs ++ r') :
    ∃ r r', x.obs ++ r = y.obs ++ r' := by
  rw [obs_bind, obs_bind, List.append_assoc, List.append_assoc] at h
  exact ⟨_, _, h⟩

theorem paddedL_len {n n' : Nat} {k k' : Bytes} {r r' : List Obs} (h : (paddedL n k).obs ++ r = (paddedL n' k').obs ++ r') : Len k k' := by
  change Obs.range 0 k.length :: r = Obs.range 0 k'.length :: r' at h
  simp only [List.cons.injEq, Obs.range.injEq] at h
  exact h.1.2

theorem keyBufferL_len {n : Nat} {k k' : Option Bytes} {r r' : List Obs} (h : (keyBufferL n k).obs ++ r = (keyBufferL n k').obs ++ r') : SameKey k k' := by
  cases k with
  | none =>
    cases k' with
    | none => trivial
    | some k' => rw [keyBufferL, keyBufferL, emit_some, emit_some] at h; simp [shows] at h
  | some k =>
    cases k' with
    | none => rw [keyBufferL, keyBufferL, emit_some, emit_some] at h; simp [shows] at h
    | some k' =>
      rw [keyBufferL, keyBufferL, emit_some, emit_some] at h
      simp only [shows, List.cons_append, List.nil_append, List.cons.injEq, true_and] at h
      obtain ⟨_, _, h⟩ := front h
      exact paddedL_len h

theorem macSliceL_reads (hc : 0 < c.blockSize) (o : Nat) {key key' : Bytes} {ops ops' : List MacOp} (hk : key.length ≤ c.bytes) (hk' : key'.length ≤ c.bytes)
    (ho : Each SameCall ops ops') :
    Reads (fun _ _ => Len key key' ∧ Each SameOp ops ops') (macSliceL c o key ops) (macSliceL c o key' ops') := by
  refine Reads.of_obs (p := Len key key') (fun r r' h => ?_) fun hk1 => ?_
  · obtain ⟨_, _, h⟩ := front h
    rw [newFromSliceL, newFromSliceL, branch_neg (by omega), branch_neg (by omega)] at h
    simp only [shows, List.cons_append, List.nil_append, List.cons.injEq, true_and] at h
    obtain ⟨_, _, h⟩ := front h
    exact paddedL_len h
  · refine Reads.bind (newFromSliceL_rel c o hk1).reads fun x y hx hy h => ?_
    cases x <;> cases y <;> try exact h.elim
    · rw [newFromSliceL, branch_neg (by omega)] at hx
      change (_ >>= _ : Leak _).val = _ at hx
      simp only [val_bind, Option.bind_eq_bind, Option.bind_eq_some_iff, val_pure] at hx
      obtain ⟨_, -, _, -, _, -, hx⟩ := hx
      cases hx
    · exact Reads.bind (Mac.runL_reads hc o ho h) fun _ _ _ _ hl => Reads.pure ⟨hk1, hl⟩

/-- Of the condition of the constructor: how it came out, and how much it has shown if there was no error. -/
theorem invalidL_ok {bs : Nat} {key : Option Bytes} {salt persona : Bytes}
    (h : ¬ (key.isSome ∧ keyLen key = 0 ∨ keyLen key > bs ∨ salt.length > bs / 4 ∨ persona.length > bs / 4)) :
    invalidL bs key salt persona = shows (.branch key.isSome :: ((if key.isSome then [.branch false] else []) ++ [.branch false, .branch false, .branch false])) (pure false) := by
  have e : branch (keyLen key > bs) (pure true) (branch (salt.length > bs / 4) (pure true) (branch (persona.length > bs / 4) (pure true) (pure false))) =
      shows [.branch false, .branch false, .branch false] (pure false) := by
    rw [branch_neg (by omega), branch_neg (by omega), branch_neg (by omega)]; rfl
  simp only [invalidL, e]
  cases hk : key.isSome
  · rw [branch_neg (by simp)]; rfl
  · have : keyLen key ≠ 0 := fun h0 => h (.inl ⟨hk, h0⟩)
    rw [branch_pos rfl, branch_neg this]; rfl

theorem macL_reads (hc : 0 < c.blockSize) (o : Nat) {key key' : Option Bytes} {salt salt' persona persona' : Bytes} {ops ops' : List MacOp}
    (hk : ¬ (key.isSome ∧ keyLen key = 0 ∨ keyLen key > c.blockSize ∨ salt.length > c.blockSize / 4 ∨ persona.length > c.blockSize / 4))
    (hk' : ¬ (key'.isSome ∧ keyLen key' = 0 ∨ keyLen key' > c.blockSize ∨ salt'.length > c.blockSize / 4 ∨ persona'.length > c.blockSize / 4))
    (hs : Len salt salt') (hp : Len persona persona') (ho : Each SameCall ops ops') :
    Reads (fun _ _ => SameKey key key' ∧ Each SameOp ops ops') (macL c o key salt persona ops) (macL c o key' salt' persona' ops') := by
  refine Reads.of_obs (p := SameKey key key') (fun r r' h => ?_) fun hk1 => ?_
  · obtain ⟨_, _, h⟩ := front h
    rw [newWithSaltAndPersonalL, newWithSaltAndPersonalL, invalidL_ok hk, invalidL_ok hk', shows_bind, shows_bind, pure_bind, pure_bind] at h
    have hi : key.isSome = key'.isSome := by
      simp only [shows, List.cons_append, List.cons.injEq, Obs.branch.injEq] at h
      exact h.1
    rw [hi] at h
    simp only [shows, List.append_assoc] at h
    have h := List.append_cancel_left h
    obtain ⟨_, _, h⟩ := front h
    exact keyBufferL_len h
  · refine Reads.bind (newWithSaltAndPersonalL_rel c o hk1 hs hp).reads fun x y hx hy h => ?_
    cases x <;> cases y <;> try exact h.elim
    · rw [newWithSaltAndPersonalL, invalidL_ok hk, shows_bind, pure_bind] at hx
      change (_ >>= _ : Leak _).val = _ at hx
      simp only [val_bind, Option.bind_eq_bind, Option.bind_eq_some_iff, val_pure] at hx
      obtain ⟨_, -, _, -, _, -, hx⟩ := hx
      cases hx
    · exact Reads.bind (Mac.runL_reads hc o ho h) fun _ _ _ _ hl => Reads.pure ⟨hk1, hl⟩

end Hashes.Blake2
