import Verif.Proof.BlockBuffer
import Verif.Base.Rust
/- `digest_blocks` with a block function that may panic. -/
namespace Hashes.Rs

/-- The buffer after `digest_blocks` does not depend on the block function. -/
theorem digestBlocks_fst {σ τ : Type} (k : BufKind) (bs : Nat) (b : BlockBuffer) (input : Bytes) (f : σ → List Bytes → σ)
    (g : τ → List Bytes → τ) (s : σ) (t : τ) : (b.digestBlocks k bs input f s).1 = (b.digestBlocks k bs input g t).1 := by
  simp only [BlockBuffer.digestBlocks]
  split
  · rfl
  · by_cases h : b.pos ≠ 0
    · simp only [if_pos h]
    · simp only [if_neg h]

/-- Block functions that may panic, run through `digest_blocks`: the buffer is that of the unchecked function, and the call does with the
state what the block function does with all blocks handed on. -/
theorem digestBlocks_some {σ : Type} {k : BufKind} {bs : Nat} {b : BlockBuffer} (hbs : 0 < bs) (wf : b.WF k bs) (input : Bytes)
    (F : σ → List Bytes → Option σ) (g : σ → List Bytes → σ) (s : σ) (hF : ∀ s, F s [] = some s)
    (hF' : ∀ s x y, (F s x).bind (F · y) = F s (x ++ y)) :
    b.digestBlocks k bs input (fun (s : Option σ) blks => s.bind fun s => F s blks) (some s) =
      ((b.digestBlocks k bs input g s).1, F s (blocks bs (nFull k bs (b.content ++ input).length) (b.content ++ input))) := by
  obtain ⟨-, -, k3⟩ := BlockBuffer.digestBlocks_spec hbs wf input (fun (s : Option σ) blks => s.bind fun s => F s blks)
    (some s) (by intro s; cases s with
      | none => rfl
      | some s => exact hF s) (by
      intro s x y
      cases s with
      | none => rfl
      | some s => exact hF' s x y)
  exact Prod.ext (digestBlocks_fst ..) k3

/-- A fold of block functions that may panic, run through `digest_blocks`: if the fold over the blocks handed on does not panic,
neither does the call, and buffer and result are those of the unchecked function. -/
theorem digestBlocks_option {σ : Type} {k : BufKind} {bs : Nat} {b : BlockBuffer} (hbs : 0 < bs) (wf : b.WF k bs) (input : Bytes)
    (step : σ → Bytes → Option σ) (g : σ → List Bytes → σ) (s : σ) (hnil : ∀ s, g s [] = s)
    (happ : ∀ s x y, g (g s x) y = g s (x ++ y))
    (h : (blocks bs (nFull k bs (b.content ++ input).length) (b.content ++ input)).foldlM step s =
      some (g s (blocks bs (nFull k bs (b.content ++ input).length) (b.content ++ input)))) :
    b.digestBlocks k bs input (fun (s : Option σ) blks => s.bind fun s => blks.foldlM step s) (some s) =
      ((b.digestBlocks k bs input g s).1, some (b.digestBlocks k bs input g s).2) := by
  obtain ⟨-, -, h3⟩ := BlockBuffer.digestBlocks_spec hbs wf input g s hnil happ
  rw [digestBlocks_some hbs wf input (fun s blks => blks.foldlM step s) g s (fun _ => rfl) (fun s x y => by rw [List.foldlM_append]; rfl), h3, h]

end Hashes.Rs
