import Verif.Proof.Observe
import Verif.Proof.Sha256
/-
C01–C05: streaming, API histories, state serialization — for every core satisfying the block-fold laws
(`Core.Lawful`, `Core.SerLawful`, `Core.DeserLawful`).  That each algorithm of the library satisfies these
laws is proved in the per-algorithm files and collected in `Verif/Props/Catalogue.lean`.
-/
namespace Hashes
variable {σ ω : Type} {inv : σ → Prop}

/-- C01. Eager hashers (the statement holds for either buffer kind): from any well-formed state, feeding the chunks `l` one by one or in a single call
is indistinguishable by any continuation (more updates, then finalize or serialize). -/
theorem C01_eager_chunking (c : Core σ ω) (L : c.Lawful inv)
    (h : Hasher σ) (wf : h.buf.WF c.kind c.bs) (l tail : List Bytes) :
    c.finish (c.updates (c.updates h l) tail) = c.finish (c.updates (c.update h l.flatten) tail) ∧
    c.save (c.updates (c.updates h l) tail) = c.save (c.updates (c.update h l.flatten) tail) :=
  have o := (Core.updates_flatten L wf l).updates L tail
  ⟨o.finish L, o.save⟩

/-- C01, digests of fresh hashers: any chunking of `m` gives the one-shot digest of `m`. -/
theorem C01_digest_of_chunks (c : Core σ ω) (L : c.Lawful inv) (l : List Bytes) :
    c.finish (c.updates c.new l) = c.digest l.flatten :=
  ((Core.Rep.new L).updates L l).finish L

/-- C02. Lazy hashers: same as C01, and after absorbing `m` exactly the blocks before the last one have
been compressed; the retained tail has between 1 and `bs` bytes unless `m` is empty. -/
theorem C02_lazy_chunking (c : Core σ ω) (L : c.Lawful inv) (hk : c.kind = .lazy)
    (h : Hasher σ) (wf : h.buf.WF c.kind c.bs) (l tail : List Bytes) :
    c.finish (c.updates (c.updates h l) tail) = c.finish (c.updates (c.update h l.flatten) tail) ∧
    c.save (c.updates (c.updates h l) tail) = c.save (c.updates (c.update h l.flatten) tail) ∧
    (∃ blks : List Bytes, ∃ rest : Bytes,
      (∀ b ∈ blks, b.length = c.bs) ∧ l.flatten = blks.flatten ++ rest ∧
      (c.updates c.new l).core = c.updateBlocks c.init blks ∧
      (c.updates c.new l).buf.content = rest ∧
      rest.length ≤ c.bs ∧ (l.flatten ≠ [] → rest ≠ [])) := by
  have o := (Core.updates_flatten L wf l).updates L tail
  refine ⟨o.finish L, o.save, ?_⟩
  have r := (Core.Rep.new L).updates L l
  rw [List.nil_append] at r
  have hle : nFull c.kind c.bs l.flatten.length * c.bs ≤ l.flatten.length := nFull_mul_le
  refine ⟨_, _, ?_, ?_, r.2.1, r.2.2, ?_, ?_⟩
  · exact fun b hb => length_of_mem_blocks hle hb
  · rw [flatten_blocks, List.take_append_drop]
  · rw [List.length_drop, hk]; exact tail_le L.bs_pos
  · intro hne
    have hpos : 0 < l.flatten.length := List.length_pos_iff.mpr hne
    apply List.ne_nil_of_length_pos
    rw [List.length_drop, hk]
    simp only [nFull]
    have := Nat.div_mul_le_self (l.flatten.length - 1) c.bs
    omega

/-- C03. Any API history over any number of hasher variables (creation, update, clone, reset,
finalize_reset, finalize, serialize, deserialize, in any order) emits exactly the one-shot digests of the
byte logs `Spec.messagesOf` keeps for it. -/
theorem C03_history (c : Core σ ω) (L : c.Lawful inv) (S : c.SerLawful inv) (ops : List Op) :
    runHistory c ops = (Spec.messagesOf ops).map c.digest :=
  history_refines L ops (.inl S)

/-- C03 for algorithms without state serialization. -/
theorem C03_history_noser (c : Core σ ω) (L : c.Lawful inv) (ops : List Op)
    (hops : ∀ op ∈ ops, op.usesSave = false) :
    runHistory c ops = (Spec.messagesOf ops).map c.digest :=
  history_refines L ops (.inr hops)

/-- C04. Serializing a hasher that absorbed any chunks and deserializing the bytes succeeds, and the
restored hasher gives the digest of the whole message for every continuation. -/
theorem C04_save_load (c : Core σ ω) (L : c.Lawful inv) (S : c.SerLawful inv) (l : List Bytes) :
    ∃ h', c.load (c.save (c.updates c.new l)) = some h' ∧
      ∀ tail : List Bytes, c.finish (c.updates h' tail) = c.digest (l.flatten ++ tail.flatten) ∧
        c.save (c.updates h' tail) = c.save (c.updates (c.updates c.new l) tail) := by
  have r := (Core.Rep.new L).updates L l
  rw [List.nil_append] at r
  obtain ⟨h', hl, r'⟩ := r.save_load L S
  refine ⟨h', hl, fun tail => ⟨(r'.updates L tail).finish L, ?_⟩⟩
  have o : c.Obs h' (c.updates c.new l) :=
    ⟨r'.1, r.1, r'.2.1.trans r.2.1.symm, r'.2.2.trans r.2.2.symm⟩
  exact (o.updates L tail).save

/-- C05. Whatever bytes are offered, an accepted deserialization has its cursor inside the block, re-serializes
to exactly those bytes, and has the fixed serialized length; hence two different byte strings never describe the same state. -/
theorem C05_load_canonical (c : Core σ ω) (D : c.DeserLawful) (raw : Bytes) (h : Hasher σ)
    (hl : c.load raw = some h) :
    h.buf.WF c.kind c.bs ∧ h.buf.pos ≤ c.bs ∧ c.save h = raw := by
  simp only [Core.load] at hl
  split at hl
  · rename_i s b hs hb
    injection hl with hl
    subst hl
    obtain ⟨wf, hser⟩ := BlockBuffer.serialize_deserialize hb
    refine ⟨wf, wf.pos_le, ?_⟩
    simp only [Core.save]
    rw [D.canon _ _ hs, hser, List.take_append_drop]
  · cases hl

/-- C05, no two encodings of one state. -/
theorem C05_load_injective (c : Core σ ω) (D : c.DeserLawful) (raw raw' : Bytes) (h : Hasher σ)
    (hl : c.load raw = some h) (hl' : c.load raw' = some h) : raw = raw' :=
  (C05_load_canonical c D raw h hl).2.2.symm.trans (C05_load_canonical c D raw' h hl').2.2

/-! Non-vacuity: SHA-256 satisfies all the laws, and concrete histories run. -/

example : Sha256.sha256.Lawful (fun _ => True) := Sha256.lawful.ct _ _
example : Sha256.sha256.SerLawful (fun _ => True) := Sha256.serLawful.ct _ _
example : Sha256.sha256.DeserLawful := Sha256.serLawful.deser _ _

/-- A history with two handles, a clone, a serialization and a reset. -/
example :
    runHistory Sha256.sha256
      [.new 0, .update 0 [1, 2], .clone 0 1, .update 0 [3], .save 0 7, .finalizeReset 0, .update 0 [9],
       .load 7 2, .update 2 [4], .finalize 2, .finalize 1, .finalize 0] =
    [[1, 2, 3], [1, 2, 3, 4], [1, 2], [9]].map Sha256.sha256.digest :=
  C03_history _ (Sha256.lawful.ct _ _) (Sha256.serLawful.ct _ _) _

/-- A saved state with a cursor outside the block is rejected. -/
example : Sha256.sha256.load (List.replicate 40 0 ++ [32] ++ [64] ++ List.replicate 64 0) = none := by
  decide +kernel
/-- The saved state of a fresh hasher is accepted. -/
example : (Sha256.sha256.load (Sha256.sha256.save Sha256.sha256.new)).isSome = true := by decide +kernel

end Hashes
