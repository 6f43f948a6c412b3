import Verif.Proof.Md
import Mathlib.Data.List.Induction
/- Observational equality of hashers, for arbitrary (not only reachable) well-formed states. -/
namespace Hashes
variable {σ ω : Type}

/-- Same core state, same buffered bytes. -/
structure Core.Obs (c : Core σ ω) (a b : Hasher σ) : Prop where
  wfa : a.buf.WF c.kind c.bs
  wfb : b.buf.WF c.kind c.bs
  core : a.core = b.core
  content : a.buf.content = b.buf.content

namespace Core
variable {c : Core σ ω} {inv : σ → Prop}

theorem Obs.refl {h : Hasher σ} (wf : h.buf.WF c.kind c.bs) : c.Obs h h := ⟨wf, wf, rfl, rfl⟩

theorem Obs.trans {h1 h2 h3 : Hasher σ} (a : c.Obs h1 h2) (b : c.Obs h2 h3) : c.Obs h1 h3 :=
  ⟨a.wfa, b.wfb, a.core.trans b.core, a.content.trans b.content⟩

theorem Obs.update (L : c.Lawful inv) {a b : Hasher σ} (o : c.Obs a b) (d : Bytes) :
    c.Obs (c.update a d) (c.update b d) := by
  obtain ⟨a1, a2, a3⟩ := BlockBuffer.digestBlocks_spec L.bs_pos o.wfa d c.updateBlocks a.core L.nil L.app
  obtain ⟨b1, b2, b3⟩ := BlockBuffer.digestBlocks_spec L.bs_pos o.wfb d c.updateBlocks b.core L.nil L.app
  refine ⟨a1, b1, ?_, ?_⟩
  · simp only [Core.update]; rw [a3, b3, o.core, o.content]
  · simp only [Core.update]; rw [a2, b2, o.content]

theorem Obs.updates (L : c.Lawful inv) {a b : Hasher σ} (o : c.Obs a b) (l : List Bytes) :
    c.Obs (c.updates a l) (c.updates b l) := by
  induction l generalizing a b with
  | nil => exact o
  | cons d l ih => exact ih (o.update L d)

theorem Obs.finish (L : c.Lawful inv) {a b : Hasher σ} (o : c.Obs a b) : c.finish a = c.finish b := by
  simp only [Core.finish]; rw [o.core]; exact L.fin_congr _ _ _ o.wfa o.wfb o.content

theorem Obs.save {a b : Hasher σ} (o : c.Obs a b) : c.save a = c.save b := by
  simp only [Core.save, BlockBuffer.serialize]
  rw [o.core, o.content, pos_congr o.wfa o.wfb o.content]

/-- Two consecutive updates are one update with the concatenation. -/
theorem update_update (L : c.Lawful inv) {h : Hasher σ} (wf : h.buf.WF c.kind c.bs) (x y : Bytes) :
    c.Obs (c.update (c.update h x) y) (c.update h (x ++ y)) := by
  obtain ⟨a1, a2, a3⟩ := BlockBuffer.digestBlocks_spec L.bs_pos wf x c.updateBlocks h.core L.nil L.app
  obtain ⟨b1, b2, b3⟩ := BlockBuffer.digestBlocks_spec L.bs_pos a1 y c.updateBlocks
    (BlockBuffer.digestBlocks c.kind c.bs h.buf x c.updateBlocks h.core).2 L.nil L.app
  obtain ⟨d1, d2, d3⟩ := BlockBuffer.digestBlocks_spec L.bs_pos wf (x ++ y) c.updateBlocks h.core L.nil L.app
  have hle : nFull c.kind c.bs (h.buf.content ++ x).length * c.bs ≤ (h.buf.content ++ x).length := nFull_mul_le
  have hn := nFull_append (k := c.kind) L.bs_pos (h.buf.content ++ x).length y.length
  rw [a2, List.length_append, List.length_drop] at b2 b3
  rw [← List.append_assoc, List.length_append, hn] at d2 d3
  refine ⟨b1, d1, ?_, ?_⟩
  · simp only [Core.update]
    rw [b3, d3, a3, L.app, blocks_add, blocks_append_left _ _ _ _ hle, List.drop_append_of_le_length hle]
  · simp only [Core.update]
    rw [b2, d2, Nat.add_mul, ← List.drop_drop, List.drop_append_of_le_length hle]

theorem update_nil (L : c.Lawful inv) {h : Hasher σ} (wf : h.buf.WF c.kind c.bs) : c.Obs (c.update h []) h := by
  obtain ⟨a1, a2, a3⟩ := BlockBuffer.digestBlocks_spec L.bs_pos wf [] c.updateBlocks h.core L.nil L.app
  have : nFull c.kind c.bs (h.buf.content ++ []).length = 0 := by
    have hl := wf.length_content
    rw [List.append_nil, hl]
    have := wf.2
    cases hk : c.kind <;> rw [hk] at this <;> simp only [BlockBuffer.WF] at this <;> simp only [nFull]
    · exact Nat.div_eq_of_lt this
    · by_cases h0 : h.buf.pos = 0
      · simp [h0]
      · exact Nat.div_eq_of_lt (by omega)
  rw [this] at a2 a3
  exact ⟨a1, wf, by simp only [Core.update]; rw [a3]; simp [blocks, L.nil], by simpa [Core.update] using a2⟩

theorem updates_flatten (L : c.Lawful inv) {h : Hasher σ} (wf : h.buf.WF c.kind c.bs) (l : List Bytes) :
    c.Obs (c.updates h l) (c.update h l.flatten) := by
  induction l using List.reverseRecOn with
  | nil =>
    have := update_nil L wf
    exact ⟨this.wfb, this.wfa, this.core.symm, this.content.symm⟩
  | append_singleton l d ih =>
    simp only [Core.updates, List.foldl_append, List.foldl_cons, List.foldl_nil, List.flatten_append,
      List.flatten_cons, List.flatten_nil, List.append_nil]
    exact (ih.update L d).trans (update_update L wf _ _)

end Core
end Hashes
