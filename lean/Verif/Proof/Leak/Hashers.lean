import Verif.Proof.Leak.Run
import Verif.Proof.Checked.SoftPtr
/- The observed hashers of Leak/Run.lean, one by one: forgetting the observations gives the checked hashers; observations that depend on
lengths only; observations that determine the message. -/
namespace Hashes
open Leak

/-! ### Forgetting the observations -/

section
open Rs (countedC plainC digestPadC)

theorem Md4.follows : Leak.Follows md4L md4C :=
  countedL_follows (by decide) rfl (fun _ _ _ => rfl) fun s v b wf => by
    rw [val_bind, digestPadL_val (bs := 64) wf _ _ (g := fun s b => some (compress s b)) fun _ _ _ => rfl]
    rfl
theorem Md5.follows : Leak.Follows md5L md5C :=
  countedL_follows (by decide) rfl (fun _ _ _ => rfl) fun s v b wf => by
    rw [val_bind, digestPadL_val (bs := 64) wf _ _ (g := fun s b => some (compress s [b])) fun _ _ _ => rfl]
    exact bind_congr fun _ => outLEL_val _ _
theorem Ripemd.follows {α : Type} (M : Mod α) : Leak.Follows (ripemdL M) (ripemdC M) :=
  countedL_follows (by decide) rfl (fun _ _ _ => rfl) fun s v b wf => by
    rw [val_bind, digestPadL_val (bs := 64) wf _ _ (g := fun s b => some (M.compress s b)) fun _ _ _ => rfl]
    exact bind_congr fun _ => outLEL_val _ _
theorem Sha1.follows : Leak.Follows sha1L sha1C :=
  countedL_follows (by decide) rfl (fun _ _ _ => rfl) fun s v b wf => by
    rw [val_bind, digestPadL_val (bs := 64) wf _ _ (g := fun s b => some (compressSoft s [b])) fun _ _ _ => rfl]
    exact bind_congr fun _ => outBEL_val _ _
theorem Sha256.follows {a : Nat} (ha : a % 4 = 0) (N : Nat) : Leak.Follows (sha256L a N) (sha256C N) :=
  have hc : ∀ (s : V8 W32) (l : List Bytes), BlocksOf 64 l → (compressSoftL a s (l.map (Raw.Obj.mk 0))).val = some (compressSoft s l) := fun s l hl => by
    rw [compressSoftL_val, compressSoftC_eq ha _ _ (by simpa [BlocksOf] using hl), List.map_map]
    exact congrArg (fun l => some (compressSoft s l)) (List.map_id l)
  countedL_follows (by decide) rfl hc fun s v b wf => by
    rw [val_bind, digestPadL_val (bs := 64) wf _ _ (f := fun s b => compressSoftL a s [⟨0, b⟩]) (g := fun s b => some (compressSoft s [b])) fun s x hx =>
      hc s [x] fun c hc => by cases List.mem_singleton.mp hc; exact hx]
    refine bind_congr fun st => ?_
    rw [val_bind, outBEL_val]
    exact bind_congr fun o => truncateL_val _ _ _
theorem Sha512.follows {a : Nat} (ha : a % 8 = 0) (N : Nat) : Leak.Follows (sha512L a N) (sha512C N) :=
  have hc : ∀ (s : V8 W64) (l : List Bytes), BlocksOf 128 l → (compressSoftL a s (l.map (Raw.Obj.mk 0))).val = some (compressSoft s l) := fun s l hl => by
    rw [compressSoftL_val, compressSoftC_eq ha _ _ (by simpa [BlocksOf] using hl), List.map_map]
    exact congrArg (fun l => some (compressSoft s l)) (List.map_id l)
  countedL_follows (by decide) rfl hc fun s v b wf => by
    rw [val_bind, digestPadL_val (bs := 128) wf _ _ (f := fun s b => compressSoftL a s [⟨0, b⟩]) (g := fun s b => some (compressSoft s [b])) fun s x hx =>
      hc s [x] fun c hc => by cases List.mem_singleton.mp hc; exact hx]
    refine bind_congr fun st => ?_
    rw [val_bind, outBEL_val]
    exact bind_congr fun o => truncateL_val _ _ _
theorem Sm3.follows : Leak.Follows sm3L sm3C :=
  countedL_follows (by decide) rfl (blocks_val fun s x _ => compressL_val s x) fun s v b wf => by
    rw [val_bind, digestPadL_val (bs := 64) wf _ _ fun s x _ => compressL_val s x]
    exact bind_congr fun _ => outBEL_val _ _
theorem Tiger.follows (ver2 : Bool) : Leak.Follows (tigerL ver2) (tigerC ver2) :=
  countedL_follows (by decide) rfl (blocks_val fun s x _ => compressL_val _ s x) fun s v b wf => by
    rw [val_bind, digestPadL_val (bs := 64) wf _ _ fun s x _ => compressL_val _ s x]
    cases ver2 <;> exact bind_congr fun _ => outLEL_val _ _

theorem Groestl.pFinalL_val (g : Cfg) (h : List W64) : (pFinalL g h).val = pFinalC g h := by
  simp only [pFinalL, pFinalC, val_bind, val_loop, val_shl, val_idx, val_upd, rndpL_val]
theorem Groestl.follows (g : Cfg) (hg : 0 < g.cols) (N : Nat) : Leak.Follows (groestlL g N) (groestlC g N) :=
  countedL_follows (show 0 < 8 * g.cols by omega) rfl (blocks_val fun s x _ => compressL_val g s x) fun s v b wf => by
    rw [val_bind, digestPadL_val (bs := 8 * g.cols) wf _ _ fun s x _ => compressL_val g s x]
    refine bind_congr fun st => ?_
    simp only [val_bind, pFinalL_val, val_slice, outBEL_val, truncateL_val]

theorem Kupyna.outputL_val (g : Cfg) (s : List W64) (out : Bytes) : (outputL g s out).val = outputC g s out := by
  simp only [outputL, outputC, val_bind, val_store, val_load, tXorL_val, xorBytesL_val, val_slice, val_fromBe]
theorem Kupyna.follows (g : Cfg) (hg : 0 < g.cols) (N : Nat) : Leak.Follows (kupynaL g N) (kupynaC g N) :=
  countedL_follows (show 0 < 8 * g.cols by omega) rfl (blocks_val fun s x _ => compressL_val g s x) fun s v b wf => by
    rw [val_bind, val_slice]
    refine bind_congr fun suffix => ?_
    rw [val_bind, digestPadL_val (bs := 8 * g.cols) wf _ _ fun s x _ => compressL_val g s x]
    refine bind_congr fun st => ?_
    simp only [val_bind, outputL_val, truncateL_val]

theorem Jh.padZero_wf {b : BlockBuffer} (wf : b.WF .eager 64) : (b.padWithZeros 64).2.WF .eager 64 := by
  have := wf.pos_le
  refine ⟨?_, show 0 < 64 by decide⟩
  simp only [BlockBuffer.padWithZeros, List.length_append, List.length_replicate, List.length_take, wf.1]; omega
theorem Jh.f8L_some (p : Nat) (s : V8 W128) (x : Bytes) (hx : x.length = 64) : (f8L s ⟨p, x⟩).val = some (f8 s x) := by
  rw [f8L_val, f8C_eq _ _ hx]
theorem Jh.padL_val (p : Nat) {b : BlockBuffer} (wf : b.WF .eager 64) (len : Bytes) (s : V8 W128) : (padL p b len s).val = padC b len s := by
  rw [padL, padC, val_branch]
  split
  · exact digestPadL_val wf _ _ (f8L_some p) s
  · rw [val_bind, digestPadL_val wf _ _ (f8L_some p) s]
    exact bind_congr fun t => digestPadL_val (padZero_wf wf) _ _ (f8L_some p) t
theorem Jh.follows (p N : Nat) : Leak.Follows (jhL p N) (jhC N) :=
  countedL_follows (by decide) rfl (fun s l hl => by
      rw [blocks_val (f8L_some p) s l hl]
      clear hl
      induction l generalizing s with
      | nil => rfl
      | cons x l ih => exact ih (f8 s x)) fun s v b wf => by
    rw [val_bind, padL_val p wf]
    refine bind_congr fun st => ?_
    simp only [val_bind, val_slice, val_copy, truncateL_val]

theorem Whirlpool.adcAtL_val (l : List W64) (i : Nat) (b c : W64) : (adcAtL l i b c).val = adcAt l i b c := by
  simp only [adcAtL, adcAt, val_bind, val_idx, val_add, val_upd, val_shr, val_pure]; rfl
theorem Whirlpool.updateLenL_val (l : List W64) (n : W64) : (updateLenL l n).val = updateLenC l n := by
  simp only [updateLenL, updateLenC, val_bind, adcAtL_val, val_pure]; rfl
theorem Whirlpool.follows : Leak.Follows whirlpoolL whirlpoolC where
  pos := by decide
  kind := rfl
  bs := rfl
  init := rfl
  upd := fun s l hl => by
    simp only [whirlpoolL, whirlpoolC, val_bind, val_seen, updateLenL_val, val_pure]
    refine bind_congr fun _ => bind_congr fun _ => ?_
    rw [blocks_val (fun s x _ => compressL_val s x) s.1 l hl]; rfl
  fin := fun s b wf => by
    simp only [whirlpoolL, whirlpoolC, val_bind, val_seen, updateLenL_val, outBEL_val, outLEL_val]
    refine bind_congr fun _ => bind_congr fun _ => bind_congr fun _ => ?_
    rw [digestPadL_val (bs := 64) wf _ _ fun s x _ => compressL_val s x]

theorem Fsb.follows (P : Params) (hP : 0 < P.bs) (PI : Bytes) : Leak.Follows (fsbL P PI) (fsbC P PI) :=
  countedL_follows hP rfl (blocks_val fun s x _ => compressL_val s x) fun s v b wf => by
    rw [val_bind, digestPadL_val (bs := P.bs) wf _ _ fun s x _ => compressL_val s x]
    refine bind_congr fun h => ?_
    simp only [val_bind, Whirlpool.follows.run, val_slice, val_copy]
    rfl

theorem Md2.finalizeL_val (s : State) (b : BlockBuffer) : (finalizeL s b).val = finalizeC s b := by
  simp only [finalizeL, finalizeC, val_bind, val_slice, val_copy, compressL_val]
theorem Md2.follows : Leak.Follows md2L md2C :=
  plainL_follows (by decide) rfl (fun s x _ => compressL_val s x) fun s b _ => finalizeL_val s b

theorem Gost94.adcAtL_val (n : List W64) (i : Nat) (b c : W64) : (adcAtL n i b c).val = adcAt n i b c := by
  simp only [adcAtL, adcAt, val_bind, val_idx, adcL_val, val_upd, val_pure]; rfl
theorem Gost94.updateNL_val (n : List W64) (len : W64) : (updateNL n len).val = updateNC n len := by
  simp only [updateNL, updateNC, val_bind, val_shl, val_shr, adcAtL_val, val_pure]; rfl
theorem Gost94.lastBlockL_val (sb : List (List Byte)) (s : StateC) (b : BlockBuffer) : (lastBlockL sb s b).val = lastBlockC sb s b := by
  simp only [lastBlockL, lastBlockC, val_branch, val_bind, updateNL_val, compressL_val, val_pure]; rfl
theorem Gost94.finalizeL_val (sb : List (List Byte)) (s : StateC) (b : BlockBuffer) (out : Bytes) : (finalizeL sb s b out).val = finalizeC sb s b out := by
  simp only [finalizeL, finalizeC, val_bind, lastBlockL_val, val_store, fL_val, val_copy]
theorem Gost94.follows (sb : List (List Byte)) (h0 : Bytes) : Leak.Follows (gost94L sb h0) (gost94C sb h0) where
  pos := show 0 < 32 by decide
  kind := rfl
  bs := rfl
  init := rfl
  upd := fun s l hl => by
    simp only [gost94L, gost94C, val_bind, val_seen, updateNL_val]
    exact bind_congr fun _ => bind_congr fun _ => blocks_val (fun s x _ => compressL_val sb s x) _ l hl
  fin := fun s b _ => finalizeL_val sb s b _

theorem Streebog.finalizeL_val (h n s : List W64) (b : BlockBuffer) (out : Bytes) : (finalizeL h n s b out).val = finalizeC h n s b out := by
  simp only [finalizeL, finalizeC, val_bind, val_upd, compressL_val, gL_val, toBytesL, toBytesC, val_store, val_copy]
theorem Streebog.follows (N : Nat) : Leak.Follows (streebogL N) (streebogC N) :=
  plainL_follows (by decide) rfl (fun _ _ _ => compressL_val ..) fun s b _ => by
    rw [val_bind, finalizeL_val]; exact bind_congr fun _ => truncateL_val _ _ _
theorem Shabal.follows (N : Nat) : Leak.Follows (shabalL N) (shabalC N) :=
  plainL_follows (by decide) rfl (fun _ _ _ => compressL_val ..) fun s b _ => by
    rw [val_bind, finalizeL_val]; exact bind_congr fun _ => truncateL_val _ _ _
theorem Belt.follows (E : CipherC) : Leak.Follows (beltL E) (beltC E) where
  pos := show 0 < 32 by decide
  kind := rfl
  bs := rfl
  init := rfl
  upd := fun s l hl => by
    simp only [beltL, beltC, val_bind, val_seen]
    exact bind_congr fun _ => blocks_val (fun s x _ => compressBlockL_val E s x) _ l hl
  fin := fun s b _ => finalizeL_val E s b _
theorem Blake2.follows {w : Nat} (c : Cfg w) (hc : 0 < c.blockSize) (i : Option (State w)) (N : Nat) : Leak.Follows (blake2L c i N) (blake2C c i N) :=
  plainL_follows hc rfl (fun _ _ _ => updateBlockL_val ..) fun s b _ => by
    rw [val_bind, finalizeL_val]; exact bind_congr fun _ => truncateL_val _ _ _
theorem Skein.follows (E : CipherC) (n : Nat) (hn : 0 < n) (N : Nat) : Leak.Follows (skeinL E n N) (skeinC E n N) :=
  plainL_follows (by omega) rfl (fun _ _ _ => processBlockL_val ..) fun _ _ _ => finalizeL_val ..
theorem Sha3.follows_fixed (f : Lanes → Lanes) (N rate : Nat) (hr : 0 < rate) (pad : Byte) : Leak.Follows (fixedL f N rate pad) (fixedC f N rate pad) :=
  plainL_follows hr rfl (fun _ _ _ => absorbBlockL_val ..) fun _ _ _ => finalizeL_val ..
theorem Sha3.follows_shake (f : Lanes → Lanes) (rate : Nat) (hr : 0 < rate) (pad : Byte) : Leak.Follows (shakeL f rate pad) (shakeC f rate pad) :=
  plainL_follows hr rfl (fun _ _ _ => absorbBlockL_val ..) fun _ _ _ => finalizeXofL_val ..
theorem Ascon.follows_hash (P : State → State) : Leak.Follows (hash256L P) (hash256C P) :=
  plainL_follows (by decide) rfl (fun _ _ _ => absorbBlockL_val ..) fun _ _ _ => finalizeL_val ..
theorem Ascon.follows_xof (P : State → State) : Leak.Follows (xof128L P) (xof128C P) :=
  plainL_follows (by decide) rfl (fun _ _ _ => absorbBlockL_val ..) fun _ _ _ => finalizeXofL_val ..
end

/-! ### Observations that depend on lengths only -/

theorem Leak.Rel.any {α β : Type} {R : α → β → Prop} {x : Leak α} {y : Leak β} (h : Rel R x y) : Rel Any x y := h.mono fun _ _ _ => trivial
theorem Leak.Rel.self {α : Type} {R : α → α → Prop} (x : Leak α) (h : ∀ a, R a a) : Rel R x x := (Rel.refl x).mono fun a b e => e ▸ h a
theorem len_be (n v v' : Nat) : Len (beBytes n v) (beBytes n v') := by rw [Len, length_beBytes, length_beBytes]
theorem len_le (n v v' : Nat) : Len (leBytes n v) (leBytes n v') := by rw [Len, length_leBytes, length_leBytes]

theorem Md4.quiet : Quiet md4L fun s s' => Any s.1 s'.1 ∧ s.2 = s'.2 :=
  countedL_quiet (by decide) (Rel.pure trivial) (fun _ _ _ _ _ _ => Rel.pure trivial) fun s s' v b b' _ hb =>
    Rel.bind (digestPadL_rel (R := Any) (bs := 64) hb (len_le _ _ _) (fun _ _ _ _ _ _ _ => Rel.pure trivial) trivial) fun t t' _ => (outLEL_rel 16 (show Len t.toList t'.toList from rfl)).any
theorem Md5.quiet : Quiet md5L fun s s' => Any s.1 s'.1 ∧ s.2 = s'.2 :=
  countedL_quiet (by decide) (Rel.pure trivial) (fun _ _ _ _ _ _ => Rel.pure trivial) fun s s' v b b' _ hb =>
    Rel.bind (digestPadL_rel (R := Any) (bs := 64) hb (len_le _ _ _) (fun _ _ _ _ _ _ _ => Rel.pure trivial) trivial) fun t t' _ => (outLEL_rel 16 (show Len t.toList t'.toList from rfl)).any
theorem Ripemd.quiet {α : Type} (M : Mod α) (hM : ∀ a, (M.toList a).length = M.n) : Quiet (ripemdL M) fun s s' => Any s.1 s'.1 ∧ s.2 = s'.2 :=
  countedL_quiet (by decide) (Rel.pure trivial) (fun _ _ _ _ _ _ => Rel.pure trivial) fun s s' v b b' _ hb =>
    Rel.bind (digestPadL_rel (R := Any) (bs := 64) hb (len_le _ _ _) (fun _ _ _ _ _ _ _ => Rel.pure trivial) trivial) fun _ _ _ =>
      (outLEL_rel _ ((hM _).trans (hM _).symm)).any
theorem Sha1.quiet : Quiet sha1L fun s s' => Any s.1 s'.1 ∧ s.2 = s'.2 :=
  countedL_quiet (by decide) (Rel.pure trivial) (fun _ _ _ _ _ _ => Rel.pure trivial) fun s s' v b b' _ hb =>
    Rel.bind (digestPadL_rel (R := Any) (bs := 64) hb (len_be _ _ _) (fun _ _ _ _ _ _ _ => Rel.pure trivial) trivial) fun t t' _ => (outBEL_rel 20 (show Len t.toList t'.toList from rfl)).any

theorem objs {n : Nat} {l l' : List Bytes} (h : SameShape n l l') : Each (fun b b' : Raw.Obj => Len b.data b'.data) (l.map (Raw.Obj.mk 0)) (l'.map (Raw.Obj.mk 0)) :=
  Rel.each_of_len (by simpa [Len] using h.1) fun x hx y hy => by
    obtain ⟨a, ha, rfl⟩ := List.mem_map.mp hx
    obtain ⟨b, hb, rfl⟩ := List.mem_map.mp hy
    exact (h.2.1 a ha).trans (h.2.2 b hb).symm

theorem Sha256.quiet (a N : Nat) : Quiet (sha256L a N) fun s s' => Any s.1 s'.1 ∧ s.2 = s'.2 :=
  countedL_quiet (by decide) (Rel.self _ fun _ => trivial) (fun s s' l l' _ h => compressSoftL_rel a s s' (objs h)) fun s s' v b b' _ hb =>
    Rel.bind (digestPadL_rel (R := Any) (bs := 64) hb (len_be _ _ _) (fun s s' x x' _ hx hx' => compressSoftL_rel a s s' (objs (one_shape hx hx'))) trivial)
      fun _ _ _ => Rel.bind (outBEL_rel _ rfl) fun _ _ h => truncateL_rel _ _ h
theorem Sha512.quiet (a N : Nat) : Quiet (sha512L a N) fun s s' => Any s.1 s'.1 ∧ s.2 = s'.2 :=
  countedL_quiet (by decide) (Rel.self _ fun _ => trivial) (fun s s' l l' _ h => compressSoftL_rel a s s' (objs h)) fun s s' v b b' _ hb =>
    Rel.bind (digestPadL_rel (R := Any) (bs := 128) hb (len_be _ _ _) (fun s s' x x' _ hx hx' => compressSoftL_rel a s s' (objs (one_shape hx hx'))) trivial)
      fun _ _ _ => Rel.bind (outBEL_rel _ rfl) fun _ _ h => truncateL_rel _ _ h
theorem Sm3.quiet : Quiet sm3L fun s s' => Len s.1 s'.1 ∧ s.2 = s'.2 :=
  countedL_quiet (by decide) (Rel.pure rfl) (blocks_rel fun s s' x x' hs hx hx' => compressL_rel hs (hx.trans hx'.symm)) fun s s' v b b' hs hb =>
    Rel.bind (digestPadL_rel (R := Len) (bs := 64) hb (len_be _ _ _) (fun s s' x x' hs hx hx' => compressL_rel hs (hx.trans hx'.symm)) hs)
      fun _ _ h => (outBEL_rel _ h).any

theorem Jh.padL_rel (p : Nat) {b b' : BlockBuffer} (hb : SameFill .eager 64 b b') {len len' : Bytes} (hl : Len len len') (s s' : V8 W128) :
    Rel Any (padL p b len s) (padL p b' len' s') := by
  have hf : ∀ (s s' : V8 W128) (x x' : Bytes), Any s s' → x.length = 64 → x'.length = 64 → Rel Any (f8L s ⟨p, x⟩) (f8L s' ⟨p, x'⟩) :=
    fun s s' x x' _ hx hx' => f8L_rel s s' ⟨rfl, hx.trans hx'.symm⟩
  refine Rel.branch (by rw [hb.1]) (digestPadL_rel hb hl hf trivial) ?_
  exact Rel.bind (digestPadL_rel hb rfl hf trivial) fun _ _ _ =>
    digestPadL_rel (b := (b.padWithZeros 64).2) (b' := (b'.padWithZeros 64).2) (k := .eager) ⟨rfl, padZero_wf hb.2.1, padZero_wf hb.2.2⟩ hl hf trivial
theorem Jh.quiet (p N : Nat) : Quiet (jhL p N) fun s s' => Any s.1 s'.1 ∧ s.2 = s'.2 :=
  countedL_quiet (by decide) (Rel.self _ fun _ => trivial) (blocks_rel fun s s' x x' _ hx hx' => f8L_rel s s' ⟨rfl, hx.trans hx'.symm⟩)
    fun s s' v b b' _ hb => Rel.bind (padL_rel p hb (len_be _ _ _) _ _) fun t t' _ => by
      have e : Len (bytesOfWordsLE t.toList) (bytesOfWordsLE t'.toList) := by
        simp only [Len, bytesOfWordsLE, List.length_flatMap, length_leBytes]; rfl
      rw [show (bytesOfWordsLE t'.toList).length = (bytesOfWordsLE t.toList).length from e.symm]
      exact Rel.bind (Rel.slice e rfl rfl) fun _ _ h => Rel.bind (Rel.copy rfl rfl rfl h) fun _ _ h => truncateL_rel _ _ h

theorem Leak.plainL_quiet {τ ω : Type} {kind : BufKind} {bs : Nat} {i : Leak τ} {comp : τ → Bytes → Leak τ} {out : τ → BlockBuffer → Leak ω} {R : τ → τ → Prop} (hp : 0 < bs)
    (hi : Rel R i i) (hc : ∀ s s' x x', R s s' → Len x x' → Rel R (comp s x) (comp s' x'))
    (ho : ∀ s s' b b', R s s' → SameFill kind bs b b' → Rel Any (out s b) (out s' b')) : Quiet (plainL kind bs i comp out) R where
  pos := hp
  init := hi
  upd := fun s s' l l' hs hl => blocks_rel (n := bs) (fun s s' x x' hs hx hx' => hc s s' x x' hs (hx.trans hx'.symm)) s s' l l' hs hl
  fin := ho

theorem Shabal.quiet (N : Nat) : Quiet (shabalL N) Same :=
  plainL_quiet (by decide) (Rel.self _ fun _ => ⟨rfl, rfl, rfl⟩) (fun _ _ _ _ hs hx => compressL_rel hs hx) fun _ _ _ _ hs hb =>
    Rel.bind (finalizeL_rel hs hb.1 hb.padded rfl) fun _ _ h => truncateL_rel _ _ h
theorem Belt.quiet {E : CipherC} (hE : ∀ x k, (E x k).length = 4) : Quiet (beltL E) Same :=
  have hE' : ∀ x x' k k', Len x x' → Len k k' → Len (E x k) (E x' k') := fun _ _ _ _ _ _ => (hE _ _).trans (hE _ _).symm
  { pos := show 0 < 32 by decide
    init := Rel.pure ⟨rfl, rfl, rfl⟩
    upd := fun s s' l l' hs hl => by
      show Rel _ (Leak.seen (Count.wbump 128 s.r l.length) >>= _) (Leak.seen (Count.wbump 128 s'.r l'.length) >>= _)
      refine Rel.bind (Rel.seen (by rw [hs.1, hl.1])) fun r r' hr => ?_
      exact blocks_rel (R := Same) (fun s s' x x' hs hx hx' => compressBlockL_rel hE' hs (hx.trans hx'.symm)) _ _ l l' ⟨hr, hs.2⟩ hl
    fin := fun s s' b b' hs hb => (finalizeL_rel hE' hs hb.1 hb.padded rfl).any }
theorem Blake2.quiet {w : Nat} (c : Cfg w) (hc : 0 < c.blockSize) (i : Option (State w)) (N : Nat) : Quiet (blake2L c i N) fun s s' => s.t = s'.t :=
  plainL_quiet hc (Rel.self _ fun _ => rfl) (fun _ _ _ _ hs hx => updateBlockL_rel c hs hx) fun _ _ _ _ hs hb =>
    Rel.bind (finalizeL_rel c hs hb.1 hb.padded rfl) fun _ _ h => truncateL_rel _ _ h
theorem Skein.quiet {E : CipherC} {n : Nat} (hn : 0 < n) (hE : ∀ k t b, (E k t b).length = n) (N : Nat) : Quiet (skeinL E n N) Same :=
  have hE' : ∀ k k' t b b', Len k k' → Len b b' → Len (E k t b) (E k' t b') := fun _ _ _ _ _ _ _ => (hE _ _ _).trans (hE _ _ _).symm
  plainL_quiet (by omega) (Rel.self _ fun _ => ⟨rfl, rfl, rfl⟩) (fun _ _ x x' hs hx => by
      rw [show x.length = x'.length from hx]; exact processBlockL_rel hE' n _ hs hx)
    fun _ _ _ _ hs hb => (finalizeL_rel hE' n hs hb.1 hb.padded rfl).any
theorem Sha3.quiet_fixed {f : Lanes → Lanes} (hf : Perm f) (N : Nat) {rate : Nat} (hr : 0 < rate) (pad : Byte) : Quiet (fixedL f N rate pad) Both :=
  plainL_quiet hr (Rel.pure ⟨rfl, rfl⟩) (fun _ _ _ _ hs hx => absorbBlockL_rel hf hs hx) fun _ _ _ _ hs hb =>
    (finalizeL_rel hf rate pad hs hb.1 hb.padded rfl).any
theorem Sha3.quiet_shake {f : Lanes → Lanes} (hf : Perm f) {rate : Nat} (hr : 0 < rate) (pad : Byte) : Quiet (shakeL f rate pad) Both :=
  plainL_quiet hr (Rel.pure ⟨rfl, rfl⟩) (fun _ _ _ _ hs hx => absorbBlockL_rel hf hs hx) fun _ _ _ _ hs hb =>
    (finalizeXofL_rel hf rate pad hs hb.1 hb.padded).any
theorem Ascon.quiet_hash (P : State → State) : Quiet (hash256L P) Any :=
  plainL_quiet (by decide) (Rel.pure trivial) (fun _ _ _ _ _ hx => absorbBlockL_rel P _ _ hx) fun _ _ _ _ _ hb =>
    (finalizeL_rel P _ _ hb.1 (hb.2.1.1.trans hb.2.2.1.symm) rfl).any
theorem Ascon.quiet_xof (P : State → State) : Quiet (xof128L P) Any :=
  plainL_quiet (by decide) (Rel.pure trivial) (fun _ _ _ _ _ hx => absorbBlockL_rel P _ _ hx) fun _ _ _ _ _ hb =>
    finalizeXofL_rel P _ _ hb.1 (hb.2.1.1.trans hb.2.2.1.symm)

/-! ### Observations that determine the message -/

/-- One block of a function whose observations determine it. -/
theorem Leak.block_reads {σ : Type} {f : σ → Bytes → Leak σ} {n : Nat} {I : σ → Prop}
    (tell : ∀ s b b', I s → b.length = n → b'.length = n → ∀ k k' : σ → Leak σ, Tells (fun _ _ => b = b') (f s b >>= k) (f s b' >>= k')) (s : σ) (x x' : Bytes) (hs : I s)
    (hx : x.length = n) (hx' : x'.length = n) : Reads (fun a a' => x = x' ∧ a = a') (f s x) (f s x') :=
  Reads.of_tells (fun e => by rw [e]) (tell s x x' hs hx hx')

theorem Leak.keeps {σ : Type} {f : σ → Bytes → Leak σ} {n : Nat} {I : σ → Prop} (ok : ∀ s b, I s → b.length = n → ∃ t, (f s b).val = some t ∧ I t) (s : σ) (x : Bytes) (t : σ)
    (hs : I s) (hx : x.length = n) (ht : (f s x).val = some t) : I t := by
  obtain ⟨u, hu, hI⟩ := ok s x hs hx
  rw [hu] at ht; cases ht; exact hI

theorem Leak.Reads.left {α β γ δ : Type} {p : Prop} {Q : α → β → Prop} {x : Leak α} {y : Leak β} {f : α → Leak γ} {g : β → Leak δ} (h : Reads (fun a b => p ∧ Q a b) x y)
    (hf : ∀ a b, Q a b → Reads Any (f a) (g b)) : Reads (fun _ _ => p) (x >>= f) (y >>= g) :=
  Reads.bind h fun a b _ _ hq => (hf a b hq.2).keep hq.1
theorem Leak.Reads.same {α : Type} (x : Leak α) : Reads Any x x := (Reads.refl x).any

theorem Tiger.block_ok (s : List W64) (b : Bytes) : (∃ v : V3, s = v.toList) → b.length = 64 → ∃ t, (compressL TABLES s b).val = some t ∧ ∃ v : V3, t = v.toList := by
  rintro ⟨v, rfl⟩ hb
  exact ⟨_, (compressL_val _ _ b).trans (compressC_eq tiger_tables v hb), _, rfl⟩
theorem Tiger.telling (ver2 : Bool) : Telling (tigerL ver2) fun s => ∃ v : V3, s.1 = v.toList :=
  have tell := Leak.block_reads (f := compressL TABLES) (n := 64) (I := fun s => ∃ v : V3, s = v.toList) fun s b b' _ hb hb' k k' => compressL_tells _ s hb hb'
  countedL_telling (I := fun s => ∃ v : V3, s = v.toList) (by decide) (fun s hs => by cases hs; exact ⟨_, rfl⟩) (blocks_reads (Leak.keeps block_ok) tell) fun s v b b' hs hb =>
    Reads.left (digestPadL_reads (bs := 64) hb fun x x' hx hx' => tell s x x' hs hx hx') fun a b e => by rw [e]; exact Reads.same _

theorem Whirlpool.block_ok (s : List W64) (b : Bytes) : (∃ v : V8 W64, s = v.toList) → b.length = 64 → ∃ t, (compressL s b).val = some t ∧ ∃ v : V8 W64, t = v.toList := by
  rintro ⟨v, rfl⟩ hb
  exact ⟨_, (compressL_val _ b).trans (compressC_eq v hb), _, rfl⟩
theorem Whirlpool.telling : Telling whirlpoolL fun s => ∃ v : V8 W64, s.1 = v.toList :=
  have tell := Leak.block_reads (f := compressL) (n := 64) (I := fun s => ∃ v : V8 W64, s = v.toList) fun s b b' hs hb hb' k k' => by
    obtain ⟨v, rfl⟩ := hs; exact compressL_tells v hb hb'
  { pos := by decide
    init := fun s hs => by cases hs; exact ⟨⟨0, 0, 0, 0, 0, 0, 0, 0⟩, rfl⟩
    upd := fun s l l' hs hl => by
      show Reads _ (Leak.seen (Count.mul 64 512 l.length) >>= _) (Leak.seen (Count.mul 64 512 l'.length) >>= _)
      rw [hl.1]
      refine Reads.bind (Reads.refl _) ?_
      rintro n _ - - rfl
      refine Reads.bind (Reads.refl _) ?_
      rintro len _ - - rfl
      refine Reads.bind (blocks_reads (Leak.keeps block_ok) tell s.1 l l' hs hl) ?_
      rintro t _ - - ⟨e, rfl, ht⟩
      exact Reads.pure ⟨e, rfl, ht⟩
    fin := fun s b b' hs hb => by
      show Reads _ (Leak.seen (Count.mul 64 8 b.pos) >>= _) (Leak.seen (Count.mul 64 8 b'.pos) >>= _)
      rw [hb.1]
      refine Reads.bind (Reads.refl _) ?_
      rintro n _ - - rfl
      refine Reads.bind (Reads.refl _) ?_
      rintro len _ - - rfl
      refine Reads.bind (Reads.refl _) ?_
      rintro suffix _ - - rfl
      exact Reads.left (digestPadL_reads (bs := 64) hb fun x x' hx hx' => tell s.1 x x' hs hx hx') fun a b e => by rw [e]; exact Reads.same _ }

theorem Groestl.telling {g : Cfg} (G : g.Indices) (C : g.Covers) (hr : 0 < g.rounds) (hg : 0 < g.cols) (N : Nat) :
    Telling (groestlL g N) fun s => ∃ v : Arr 64 g.cols, s.1 = v.toList :=
  have tell := Leak.block_reads (f := compressL g) (n := 8 * g.cols) (I := fun s => ∃ v : Arr 64 g.cols, s = v.toList) fun s b b' _ hb hb' k k' => compressL_tells G C hr s hb hb'
  have ok : ∀ (s : List W64) (b : Bytes), (∃ v : Arr 64 g.cols, s = v.toList) → b.length = 8 * g.cols → ∃ t, (compressL g s b).val = some t ∧ ∃ v : Arr 64 g.cols, t = v.toList := by
    rintro _ b ⟨v, rfl⟩ hb
    exact ⟨_, (compressL_val g _ b).trans (compressC_eq G v hb), _, rfl⟩
  countedL_telling (I := fun s => ∃ v : Arr 64 g.cols, s = v.toList) (show 0 < 8 * g.cols by omega) (fun s hs => by
      rw [val_seen, Option.map_eq_some_iff] at hs
      obtain ⟨t, -, rfl⟩ := hs
      exact ⟨_, rfl⟩)
    (blocks_reads (Leak.keeps ok) tell) fun s v b b' hs hb =>
      Reads.left (digestPadL_reads (bs := 8 * g.cols) hb fun x x' hx hx' => tell s x x' hs hx hx') fun a b e => by rw [e]; exact Reads.same _

theorem Kupyna.telling {g : Cfg} (hc : g.cols < 2 ^ 32) (hL : g.lastShift < 2 ^ 32) (hr : 0 < g.rounds) (hg : 0 < g.cols) (N : Nat) :
    Telling (kupynaL g N) fun s => ∃ v : Arr 64 g.cols, s.1 = v.toList :=
  have tell := Leak.block_reads (f := compressL g) (n := 8 * g.cols) (I := fun s => ∃ v : Arr 64 g.cols, s = v.toList) fun s b b' hs hb hb' k k' => by
    obtain ⟨v, rfl⟩ := hs; exact compressL_tells hr v hb hb'
  have ok : ∀ (s : List W64) (b : Bytes), (∃ v : Arr 64 g.cols, s = v.toList) → b.length = 8 * g.cols → ∃ t, (compressL g s b).val = some t ∧ ∃ v : Arr 64 g.cols, t = v.toList := by
    rintro _ b ⟨v, rfl⟩ hb
    exact ⟨_, (compressL_val g _ b).trans (compressC_eq hc hL v hb), _, rfl⟩
  countedL_telling (I := fun s => ∃ v : Arr 64 g.cols, s = v.toList) (show 0 < 8 * g.cols by omega) (fun s hs => by
      rw [val_seen, Option.map_eq_some_iff] at hs
      obtain ⟨t, -, rfl⟩ := hs
      exact ⟨_, rfl⟩)
    (blocks_reads (Leak.keeps ok) tell) fun s v b b' hs hb => by
      refine Reads.bind (Reads.refl _) ?_
      rintro suffix _ - - rfl
      exact Reads.left (digestPadL_reads (bs := 8 * g.cols) hb fun x x' hx hx' => tell s x x' hs hx hx') fun a b e => by rw [e]; exact Reads.same _

theorem Fsb.block_tell {P : Params} (g : Good P) {PI : Bytes} (s x x' : Bytes) (hs : s.length = P.r / 8) (hx : x.length = P.bs) (hx' : x'.length = P.bs) :
    Reads (fun a a' => x = x' ∧ a = a') (compressL P PI s x) (compressL P PI s x') :=
  (compressL_reads g s hs hx hx').mono fun a b ha hb e => ⟨e, by rw [e, hb] at ha; exact (Option.some.inj ha).symm⟩
theorem Fsb.block_ok {P : Params} (g : Good P) {PI : Bytes} (hPI : P.n / P.r * (P.p / 8 + 1) ≤ PI.length) (s b : Bytes) (hs : s.length = P.r / 8) (hb : b.length = P.bs) :
    ∃ t, (compressL P PI s b).val = some t ∧ t.length = P.r / 8 :=
  ⟨_, (compressL_val s b).trans (compress_eq g hPI s b hs hb), length_compress s b⟩
theorem Fsb.telling {P : Params} (g : Good P) (hp : 0 < P.bs) {PI : Bytes} (hPI : P.n / P.r * (P.p / 8 + 1) ≤ PI.length) : Telling (fsbL P PI) fun s => s.1.length = P.r / 8 := by
  refine countedL_telling (I := fun s : Bytes => s.length = P.r / 8) hp ?_ ?_ ?_
  · intro s hs
    rw [val_pure] at hs
    rw [← Option.some.inj hs]; exact List.length_replicate
  · exact blocks_reads (Leak.keeps (block_ok g hPI)) (block_tell g)
  · intro s v b b' hs hb
    refine Reads.left (Q := Eq) (digestPadL_reads (bs := P.bs) hb fun x x' hx hx' => block_tell g s x x' hs hx hx') ?_
    rintro a _ rfl
    exact Reads.same _

theorem Leak.plainL_telling {τ ω : Type} {bs : Nat} {i : Leak τ} {comp : τ → Bytes → Leak τ} {out : τ → BlockBuffer → Leak ω} {I : τ → Prop} (hp : 0 < bs)
    (hi : ∀ s, i.val = some s → I s) (ok : ∀ s b, I s → b.length = bs → ∃ t, (comp s b).val = some t ∧ I t)
    (tell : ∀ s x x', I s → x.length = bs → x'.length = bs → Reads (fun a a' => x = x' ∧ a = a') (comp s x) (comp s x'))
    (ho : ∀ s b b', I s → SameFill .eager bs b b' → Reads (fun _ _ => b.content = b'.content) (out s b) (out s b')) : Telling (plainL .eager bs i comp out) I where
  pos := hp
  init := hi
  upd := blocks_reads (Leak.keeps ok) tell
  fin := ho

/-- A buffer's bytes are the beginning of the block it is padded to. -/
theorem padded_content {bs : Nat} {b : BlockBuffer} (wf : b.WF .eager bs) : (b.padWithZeros bs).1.length = bs ∧ (b.padWithZeros bs).1.take b.pos = b.content := by
  have h1 := wf.pos_le
  refine ⟨by simp only [BlockBuffer.padWithZeros, List.length_append, List.length_replicate, List.length_take, wf.1]; omega, ?_⟩
  simp only [BlockBuffer.padWithZeros]
  rw [show b.data.take b.pos = b.content from rfl, List.take_append_of_le_length (by rw [wf.length_content]; exact Nat.le_refl _),
    List.take_of_length_le (by rw [wf.length_content]; exact Nat.le_refl _)]

theorem Md2.telling : Telling md2L fun t => t.x.length = 48 ∧ t.checksum.length = 16 :=
  have tell := Leak.block_reads (f := compressL) (n := 16) (I := fun t => t.x.length = 48 ∧ t.checksum.length = 16) fun s b b' _ hb hb' k k' => by
    intro x y hx hy ho
    refine List.ext_getElem? fun j => ?_
    by_cases hj : j < 16
    · exact compressL_tells s b b' x y hx hy ho j hj
    · rw [List.getElem?_eq_none (by omega), List.getElem?_eq_none (by omega)]
  Leak.plainL_telling (by decide) (fun s hs => by cases hs; exact ⟨rfl, rfl⟩)
    (fun s b hs hb => ⟨_, (compressL_val s b).trans (compressC_eq hs.1 hs.2 hb), compress_lengths hs.1 hs.2 hb⟩) tell fun s b b' hs hb => by
      obtain ⟨hp, wf, wf'⟩ := hb
      obtain ⟨p1, p2⟩ := padded_content wf
      obtain ⟨q1, q2⟩ := padded_content wf'
      unfold finalizeL
      rw [← hp] at q2
      have h16 : b.pos < 16 := wf.2
      generalize (b.padWithZeros 16).1 = x at *
      generalize (b'.padWithZeros 16).1 = x' at *
      dsimp only
      rw [← hp, slice_ok (by omega) (by rw [p1]; exact Nat.le_refl _), slice_ok (by omega) (by rw [q1]; exact Nat.le_refl _), emit_some, emit_some]
      have hr : ∀ y : Bytes, y.length = 16 → (List.map (fun _ => BitVec.ofNat 8 (16 - b.pos)) ((y.drop b.pos).take (16 - b.pos))) = List.replicate (16 - b.pos) (BitVec.ofNat 8 (16 - b.pos)) := by
        intro y hy
        rw [List.map_const', List.length_take, List.length_drop, hy, Nat.min_self]
      rw [hr x p1, hr x' q1]
      generalize hc : List.replicate (16 - b.pos) (BitVec.ofNat 8 (16 - b.pos)) = c
      have lc : c.length = 16 - b.pos := by rw [← hc, List.length_replicate]
      rw [copy_ok (by rw [p1]; exact Nat.le_refl _) (by omega), copy_ok (by rw [q1]; exact Nat.le_refl _) (by omega), emit_some, emit_some]
      have ho : ∀ y : Bytes, y.length = 16 → (overwrite y b.pos c).length = 16 ∧ (overwrite y b.pos c).take b.pos = y.take b.pos := by
        intro y hy
        refine ⟨by rw [length_overwrite (by omega), hy], ?_⟩
        rw [overwrite, List.append_assoc, List.take_append_of_le_length (by rw [List.length_take]; omega), List.take_take, Nat.min_self]
      refine Reads.shows rfl (Reads.shows rfl ?_)
      refine (Reads.left (tell s _ _ hs (ho x p1).1 (ho x' q1).1) fun a a' e => by rw [e]; exact Reads.same _).mono fun _ _ _ _ e => ?_
      rw [← p2, ← q2, ← (ho x p1).2, ← (ho x' q1).2, e]

theorem Streebog.telling (N : Nat) : Telling (streebogL N) fun t => ∃ v : State, t = (v.h.toList, v.n.toList, v.sigma.toList) :=
  Leak.plainL_telling (by decide) (fun s hs => by
      rw [val_seen, Option.map_eq_some_iff] at hs
      obtain ⟨t, -, rfl⟩ := hs
      exact ⟨_, rfl⟩)
    (by
      rintro _ b ⟨v, rfl⟩ hb
      exact ⟨_, (compressL_val _ _ _ b _).trans (compressC_eq v hb (by decide)), _, rfl⟩)
    (Leak.block_reads fun s b b' hs hb hb' k k' => by
      obtain ⟨v, rfl⟩ := hs; exact compressL_tells v.h v.n v.sigma hb hb' 64)
    (by
      rintro _ b b' ⟨v, rfl⟩ ⟨hp, wf, wf'⟩
      obtain ⟨p1, p2⟩ := padded_content wf
      obtain ⟨q1, q2⟩ := padded_content wf'
      unfold finalizeL
      rw [← hp] at q2
      have h64 : b.pos < 64 := wf.2
      generalize (b.padWithZeros 64).1 = x at *
      generalize (b'.padWithZeros 64).1 = x' at *
      simp only [bind_assoc]
      rw [← hp]
      have hu : ∀ y : Bytes, y.length = 64 → upd y b.pos 1 = emit (.index b.pos) (some (y.set b.pos 1)) := fun y hy => by
        rw [upd, Rs.upd, if_pos (by omega)]
      rw [hu x p1, hu x' q1, emit_some, emit_some]
      have hx : (x.set b.pos 1).length = 64 := by rw [List.length_set, p1]
      have hx' : (x'.set b.pos 1).length = 64 := by rw [List.length_set, q1]
      refine Reads.shows rfl ?_
      refine (Reads.left (Reads.of_tells (p := x.set b.pos 1 = x'.set b.pos 1) (fun e => by rw [e]) fun k k' => compressL_tells v.h v.n v.sigma hx hx' _)
        fun a a' e => by rw [e]; exact Reads.same _).mono fun _ _ _ _ e => ?_
      rw [← p2, ← q2, ← List.take_set_of_le (a := 1) (l := x) (Nat.le_refl b.pos), e, List.take_set_of_le (Nat.le_refl _)])

theorem Gost94.block_ok {sb : List (List Byte)} (hsb : IsBox sb) (s : StateC) (b : Bytes) (t : StateC) (hs : s.h.length = 32) (hb : b.length = 32)
    (ht : (compressL sb s b).val = some t) : t.h.length = 32 := by
  unfold compressL at ht
  obtain ⟨h, h1, h2, -⟩ := bind_some ht
  obtain ⟨sg, -, h4, -⟩ := bind_some h2
  cases h4
  rw [fL_val, fC_eq hsb hs hb] at h1
  rw [← Option.some.inj h1]
  exact length_f ..
theorem Gost94.telling {sb : List (List Byte)} (hsb : IsBox sb) {h0 : Bytes} (hh : h0.length = 32) : Telling (gost94L sb h0) fun t => t.h.length = 32 :=
  have tell := Leak.block_reads (f := compressL sb) (n := 32) (I := fun t => t.h.length = 32) fun s b b' hs hb hb' k k' => compressL_tells sb hs hb hb'
  { pos := show 0 < 32 by decide
    init := fun s hs => by cases hs; exact hh
    upd := fun s l l' hs hl => by
      show Reads _ (Leak.seen (Count.mul 64 32 l.length) >>= _) (Leak.seen (Count.mul 64 32 l'.length) >>= _)
      rw [hl.1]
      refine Reads.bind (Reads.refl _) ?_
      rintro n _ - - rfl
      refine Reads.bind (Reads.refl _) ?_
      rintro len _ - - rfl
      exact blocks_reads (block_ok hsb) tell _ l l' hs hl
    fin := fun s b b' hs hb => by
      obtain ⟨hp, wf, wf'⟩ := hb
      obtain ⟨p1, p2⟩ := padded_content wf
      obtain ⟨q1, q2⟩ := padded_content wf'
      refine Reads.left (p := b.content = b'.content) (Q := Eq) (x := lastBlockL sb s b) (y := lastBlockL sb s b') ?_ fun a a' e => by rw [e]; exact Reads.same _
      unfold lastBlockL
      rw [← hp] at q2 ⊢
      refine Reads.branch (fun _ _ => ?_) fun h _ => Reads.pure ⟨?_, rfl⟩
      · refine Reads.bind (Reads.refl _) ?_
        rintro n _ - - rfl
        refine (tell { s with n := n } _ _ hs p1 q1).mono fun _ _ _ _ e => ⟨?_, e.2⟩
        rw [← p2, ← q2, e.1]
      · have hz : b.pos = 0 := Decidable.not_not.mp h
        rw [← p2, ← q2, hz]; rfl }

end Hashes
