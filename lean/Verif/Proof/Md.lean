import Verif.Proof.CoreWrapper
import Verif.Proof.Words
import Verif.Model.VarCore
/- Tools shared by the per-algorithm proofs. -/
namespace Hashes
variable {σ ω : Type}

/-- Deserialization of the core part accepts only canonical encodings. -/
structure Core.DeserLawful (c : Core σ ω) : Prop where
  canon : ∀ raw s, c.deserialize raw = some s → c.serialize s = raw

namespace Core
variable {c : Core σ ω} {inv : σ → Prop}

/-- One-shot digest in terms of the full blocks and the buffered tail. -/
theorem digest_unfold (L : c.Lawful inv) (m : Bytes) :
    ∃ b : BlockBuffer, b.WF c.kind c.bs ∧ b.content = m.drop (nFull c.kind c.bs m.length * c.bs) ∧
      b.pos = m.length - nFull c.kind c.bs m.length * c.bs ∧
      c.digest m = c.finalize (c.updateBlocks c.init (blocks c.bs (nFull c.kind c.bs m.length) m)) b := by
  have r := (Rep.new L).update L m
  rw [List.nil_append] at r
  refine ⟨_, r.1, r.2.2, ?_, by rw [← r.2.1]; rfl⟩
  have := r.1.length_content
  rw [← this, r.2.2]; simp

theorem digest_eager (L : c.Lawful inv) (hk : c.kind = .eager) (m : Bytes) :
    ∃ b : BlockBuffer, b.WF .eager c.bs ∧ b.content = m.drop (m.length / c.bs * c.bs) ∧
      b.pos = m.length % c.bs ∧
      c.digest m = c.finalize (c.updateBlocks c.init (blocks c.bs (m.length / c.bs) m)) b := by
  obtain ⟨b, h1, h2, h3, h4⟩ := digest_unfold L m
  rw [hk] at h1 h2 h3 h4
  simp only [nFull] at h2 h3 h4
  refine ⟨b, h1, h2, ?_, h4⟩
  rw [h3, Nat.mul_comm]
  have := Nat.div_add_mod m.length c.bs
  omega

end Core

/-- Bit length from block count and buffered byte count, at any counter width. -/
theorem bitLen_eq (w bs n : Nat) :
    8 * (BitVec.ofNat w (n % bs) + BitVec.ofNat w bs * (0 + BitVec.ofNat w (n / bs))) = BitVec.ofNat w (8 * n) := by
  rw [show (8 : BitVec w) = BitVec.ofNat w 8 from rfl, show (0 : BitVec w) = 0#w from rfl, BitVec.zero_add, ← BitVec.ofNat_mul, ← BitVec.ofNat_add,
    ← BitVec.ofNat_mul, Nat.add_comm, Nat.div_add_mod]

/-- The blocks of a padded message: the full blocks of the message, then the blocks of the padded tail. -/
theorem chunks_tail {bs : Nat} (hbs : 0 < bs) (m p : Bytes) :
    chunks bs (m ++ p) = blocks bs (m.length / bs) m ++ chunks bs (m.drop (m.length / bs * bs) ++ p) := by
  have hle := Nat.div_mul_le_self m.length bs
  have hl : (m.take (m.length / bs * bs)).length = m.length / bs * bs := by simp; omega
  have hb : blocks bs (m.length / bs) m = chunks bs (m.take (m.length / bs * bs)) := by
    rw [chunks, hl, Nat.mul_div_cancel _ hbs]
    generalize hk : m.length / bs = k at *
    have := blocks_append_left bs k (m.take (k * bs)) (m.drop (k * bs)) (by omega)
    rwa [List.take_append_drop] at this
  rw [hb, ← chunks_append hbs _ ⟨m.length / bs, by rw [hl, Nat.mul_comm]⟩, ← List.append_assoc, List.take_append_drop]

/-- Folding block lists. -/
theorem foldl_nil_app {α : Type} (f : α → Bytes → α) (s : α) : ([] : List Bytes).foldl f s = s := rfl

/-- A fixed-length buffer's `digest_pad` depends on the content only. -/
theorem digestPad_congr {α : Type} {bs : Nat} {b b' : BlockBuffer} (h : b.WF .eager bs) (h' : b'.WF .eager bs)
    (hc : b.content = b'.content) {delim : Byte} {suffix : Bytes} (hs : suffix.length ≤ bs) (f : α → Bytes → α) (s : α) :
    BlockBuffer.digestPad bs b delim suffix f s = BlockBuffer.digestPad bs b' delim suffix f s := by
  rw [BlockBuffer.digestPad_spec h hs, BlockBuffer.digestPad_spec h' hs, hc]

theorem pos_congr {k : BufKind} {bs : Nat} {b b' : BlockBuffer} (h : b.WF k bs) (h' : b'.WF k bs)
    (hc : b.content = b'.content) : b.pos = b'.pos := by
  rw [← h.length_content, ← h'.length_content, hc]

/-! ### `CtVariableCoreWrapper` -/
namespace VarCore

/-- Laws of a variable-output core. -/
structure Lawful (v : VarCore σ) : Prop where
  bs_pos : 0 < v.bs
  nil : ∀ s, v.updateBlocks s [] = s
  app : ∀ s x y, v.updateBlocks (v.updateBlocks s x) y = v.updateBlocks s (x ++ y)
  fin_congr : ∀ s b b', b.WF v.kind v.bs → b'.WF v.kind v.bs → b.content = b'.content →
    v.finalizeFull s b = v.finalizeFull s b'

/-- Serialization laws of a variable-output core. -/
structure SerLawful (v : VarCore σ) : Prop where
  bs_le : v.bs ≤ 255
  len : ∀ s, (v.serialize s).length = v.serLen
  round : ∀ s, v.deserialize (v.serialize s) = some s
  canon : ∀ raw s, v.deserialize raw = some s → v.serialize s = raw

variable {v : VarCore σ}

theorem ct_some {n : Nat} {s : σ} (hn : n ≤ v.outLen) (h : v.new n = some s) : v.ct n = some (v.ctWith n s) := by
  rw [VarCore.ct, if_pos hn, h]; rfl

theorem ct_inv {n : Nat} {c : Core σ Bytes} (h : v.ct n = some c) : n ≤ v.outLen ∧ ∃ s, v.new n = some s ∧ c = v.ctWith n s := by
  unfold VarCore.ct at h
  split at h
  · rename_i hn
    cases hs : v.new n with
    | none => rw [hs] at h; cases h
    | some s => rw [hs] at h; injection h with h; exact ⟨hn, s, rfl, h.symm⟩
  · cases h

theorem Lawful.ct (L : v.Lawful) (n : Nat) (s0 : σ) : (v.ctWith n s0).Lawful (fun _ => True) where
  bs_pos := L.bs_pos
  nil := L.nil
  app := L.app
  inv_init := trivial
  inv_update := fun _ _ _ _ => trivial
  reset_eq := fun _ _ => rfl
  fin_congr := fun s b b' h h' hc => by simp only [ctWith]; rw [L.fin_congr s b b' h h' hc]

theorem SerLawful.ct (S : v.SerLawful) (n : Nat) (s0 : σ) : (v.ctWith n s0).SerLawful (fun _ => True) where
  bs_le := S.bs_le
  len := fun s _ => by simp [ctWith, S.len]
  round := fun s _ => by
    have := S.len s
    simp only [ctWith]
    rw [← this, List.drop_left, List.take_left]
    simp [S.round]

theorem SerLawful.deser (S : v.SerLawful) (n : Nat) (s0 : σ) : (v.ctWith n s0).DeserLawful where
  canon := fun raw s h => by
    simp only [ctWith] at h ⊢
    split at h
    · rename_i o ho
      split at h
      · cases h
      · rename_i hn
        simp only [ne_eq, Decidable.not_not] at hn
        rw [S.canon _ _ h, ← hn, ← ho, List.take_append_drop]
    · cases h

end VarCore
end Hashes
