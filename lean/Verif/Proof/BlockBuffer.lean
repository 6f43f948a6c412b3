import Verif.Model.BlockBuffer
/- Helper lemmas about the block buffer. -/
namespace Hashes

/-- How many blocks of a message of `len` bytes have been compressed before finalization. -/
def nFull (k : BufKind) (bs len : Nat) : Nat :=
  match k with
  | .eager => len / bs
  | .lazy => (len - 1) / bs

/-- Representation invariant of the buffer. -/
def BlockBuffer.WF (k : BufKind) (bs : Nat) (b : BlockBuffer) : Prop :=
  b.data.length = bs ∧ match k with
    | .eager => b.pos < bs
    | .lazy => b.pos ≤ bs

theorem length_overwrite {d src : Bytes} {off : Nat} (h : off + src.length ≤ d.length) :
    (overwrite d off src).length = d.length := by
  simp [overwrite]; omega

theorem take_overwrite {d src : Bytes} {off : Nat} (h : off + src.length ≤ d.length) :
    (overwrite d off src).take (off + src.length) = d.take off ++ src := by
  have : (d.take off ++ src).length = off + src.length := by simp; omega
  rw [overwrite, ← this, List.take_left]

theorem overwrite_full {d src : Bytes} {off : Nat} (h : off + src.length = d.length) :
    overwrite d off src = d.take off ++ src := by
  simp [overwrite, h]

theorem splitCount_eq {k : BufKind} {bs len : Nat} (h : 0 < bs) :
    BlockBuffer.splitCount k bs len = nFull k bs len := by
  cases k with
  | eager => rfl
  | lazy =>
    simp only [BlockBuffer.splitCount, nFull]
    split
    · subst_vars; simp
    · rename_i hl
      obtain ⟨n, rfl⟩ : ∃ n, len = n + 1 := ⟨len - 1, by omega⟩
      simp only [Nat.add_sub_cancel]
      rw [Nat.succ_div]
      by_cases hd : bs ∣ n + 1
      · rw [if_pos (Nat.mod_eq_zero_of_dvd hd), if_pos hd]; simp
      · rw [if_neg (fun hh => hd (Nat.dvd_of_mod_eq_zero hh)), if_neg hd]; simp

theorem nFull_mul_le {k : BufKind} {bs len : Nat} : nFull k bs len * bs ≤ len := by
  cases k with
  | eager => exact Nat.div_mul_le_self ..
  | lazy =>
    have := Nat.div_mul_le_self (len - 1) bs
    simp only [nFull]; omega

theorem tail_lt {bs len : Nat} (h : 0 < bs) : len - nFull .eager bs len * bs < bs := by
  have := Nat.div_add_mod len bs
  have := Nat.mod_lt len h
  simp only [nFull]
  rw [Nat.mul_comm]; omega

theorem tail_le {bs len : Nat} (h : 0 < bs) : len - nFull .lazy bs len * bs ≤ bs := by
  have := Nat.div_add_mod (len - 1) bs
  have := Nat.mod_lt (len - 1) h
  simp only [nFull]
  rw [Nat.mul_comm]; omega

namespace BlockBuffer

theorem WF.pos_le {k : BufKind} {bs : Nat} {b : BlockBuffer} (h : b.WF k bs) : b.pos ≤ bs := by
  obtain ⟨_, h⟩ := h
  cases k <;> simp only at h <;> omega

theorem WF.length_content {k : BufKind} {bs : Nat} {b : BlockBuffer} (h : b.WF k bs) :
    b.content.length = b.pos := by
  have := h.pos_le
  simp [content, h.1, this]

theorem WF.empty {k : BufKind} {bs : Nat} (h : 0 < bs) : (BlockBuffer.empty bs).WF k bs := by
  refine ⟨by simp [BlockBuffer.empty], ?_⟩
  cases k <;> simp [BlockBuffer.empty, h]

theorem WF.reset {k : BufKind} {bs : Nat} (hbs : 0 < bs) {b : BlockBuffer} (h : b.WF k bs) :
    b.reset.WF k bs := by
  refine ⟨h.1, ?_⟩
  cases k <;> simp [BlockBuffer.reset, hbs]

@[simp] theorem content_reset (b : BlockBuffer) : b.reset.content = [] := by
  simp [content, BlockBuffer.reset]

@[simp] theorem content_empty (bs : Nat) : (BlockBuffer.empty bs).content = [] := by
  simp [content, BlockBuffer.empty]

theorem nFull_small {k : BufKind} {bs len pos n : Nat} (hbs : 0 < bs) (hp : pos ≤ bs) (hl : len = pos + n)
    (h : fits k n (bs - pos) = true) : nFull k bs len = 0 := by
  cases k with
  | eager =>
    simp only [fits, decide_eq_true_eq] at h
    simp only [nFull]; exact Nat.div_eq_of_lt (by omega)
  | lazy =>
    simp only [fits, decide_eq_true_eq] at h
    simp only [nFull]; exact Nat.div_eq_of_lt (by omega)

theorem nFull_step {k : BufKind} {bs n pos : Nat} (hbs : 0 < bs) (hp : pos ≤ bs)
    (h : ¬ fits k n (bs - pos) = true) : nFull k bs (pos + n) = 1 + nFull k bs (n - (bs - pos)) := by
  cases k with
  | eager =>
    simp only [fits, decide_eq_true_eq] at h
    simp only [nFull]
    rw [show pos + n = (n - (bs - pos)) + bs by omega, Nat.add_div_right _ hbs]; omega
  | lazy =>
    simp only [fits, decide_eq_true_eq] at h
    simp only [nFull]
    rw [show pos + n - 1 = (n - (bs - pos) - 1) + bs by omega, Nat.add_div_right _ hbs]; omega

/-- What `digest_blocks` does, for any lawful block function. -/
theorem digestBlocks_spec {σ : Type} {k : BufKind} {bs : Nat} {b : BlockBuffer} (hbs : 0 < bs)
    (wf : b.WF k bs) (input : Bytes) (f : σ → List Bytes → σ) (s : σ)
    (hnil : ∀ s, f s [] = s) (happ : ∀ s x y, f (f s x) y = f s (x ++ y)) :
    let m := b.content ++ input
    let r := digestBlocks k bs b input f s
    r.1.WF k bs ∧ r.1.content = m.drop (nFull k bs m.length * bs) ∧
      r.2 = f s (blocks bs (nFull k bs m.length) m) := by
  intro m r
  have hpos := wf.pos_le
  have hlc := wf.length_content
  have hml : m.length = b.pos + input.length := by simp [m, hlc]
  have key : ∀ (d : Bytes) (inp : Bytes), d.length = bs →
      let cnt := splitCount k bs inp.length
      let leftover := inp.drop (cnt * bs)
      (BlockBuffer.mk (overwrite d 0 leftover) leftover.length).WF k bs ∧
      (BlockBuffer.mk (overwrite d 0 leftover) leftover.length).content = leftover := by
    intro d inp hd cnt leftover
    have hcnt : cnt = nFull k bs inp.length := splitCount_eq hbs
    have hll : leftover.length = inp.length - cnt * bs := by simp [leftover]
    have hle : leftover.length ≤ bs := by
      rw [hll, hcnt]
      cases k
      · exact Nat.le_of_lt (tail_lt hbs)
      · exact tail_le hbs
    refine ⟨⟨by simp only; rw [length_overwrite (by omega), hd], ?_⟩, ?_⟩
    · cases k
      · simp only; rw [hll, hcnt]; exact tail_lt hbs
      · exact hle
    · simp only [content]
      have := take_overwrite (d := d) (src := leftover) (off := 0) (by omega)
      simpa using this
  by_cases hf : fits k input.length (bs - b.pos) = true
  · have hn0 : nFull k bs m.length = 0 := nFull_small hbs hpos hml hf
    have hr : r = (⟨overwrite b.data b.pos input, b.pos + input.length⟩, s) := by
      simp only [r, digestBlocks]; rw [if_pos hf]
    have hle : b.pos + input.length ≤ b.data.length := by
      rw [wf.1]
      cases k <;> simp only [fits, decide_eq_true_eq] at hf <;> omega
    rw [hr, hn0]
    refine ⟨⟨by simp only; rw [length_overwrite hle, wf.1], ?_⟩, ?_, ?_⟩
    · cases k
      · simp only [fits, decide_eq_true_eq] at hf ⊢; omega
      · simp only [fits, decide_eq_true_eq] at hf ⊢; omega
    · simp only [content, Nat.zero_mul, List.drop_zero]
      rw [take_overwrite hle]; rfl
    · simp [blocks, hnil]
  · have emp : ∀ (s : σ) (bl : List Bytes), (if bl.isEmpty then s else f s bl) = f s bl := by
      intro s bl
      cases bl <;> simp [hnil]
    by_cases hp : b.pos = 0
    · have hm : m = input := by
        simp [m, content, hp]
      have hr : r = (⟨overwrite b.data 0 (input.drop (splitCount k bs input.length * bs)),
            (input.drop (splitCount k bs input.length * bs)).length⟩,
          f s (blocks bs (splitCount k bs input.length) input)) := by
        simp only [r, digestBlocks]; rw [if_neg hf]; simp only [hp, ne_eq, not_true, if_false, emp]
      obtain ⟨h1, h2⟩ := key b.data input wf.1
      rw [hr, hm, ← splitCount_eq hbs]
      exact ⟨h1, h2, rfl⟩
    · let left := input.take (bs - b.pos)
      let right := input.drop (bs - b.pos)
      let data := overwrite b.data b.pos left
      have hge : bs - b.pos ≤ input.length := by
        cases k <;> simp only [fits, decide_eq_true_eq] at hf <;> omega
      have hll : left.length = bs - b.pos := by simp [left]; omega
      have hd : data = b.content ++ left := by
        simp only [data, content]; exact overwrite_full (by rw [wf.1]; omega)
      have hdl : data.length = bs := by rw [hd]; simp [hlc, hll]; omega
      have hm : m = data ++ right := by simp [m, hd, left, right]
      have hr : r = (⟨overwrite data 0 (right.drop (splitCount k bs right.length * bs)),
            (right.drop (splitCount k bs right.length * bs)).length⟩,
          f (f s [data]) (blocks bs (splitCount k bs right.length) right)) := by
        simp only [r, digestBlocks]; rw [if_neg hf]; simp only [ne_eq, hp, not_false_eq_true, if_true, emp]
        rfl
      have hnf : nFull k bs m.length = 1 + splitCount k bs right.length := by
        rw [hml, nFull_step hbs hpos hf, splitCount_eq hbs]; simp [right]
      obtain ⟨h1, h2⟩ := key data right hdl
      rw [hr, hnf]
      refine ⟨h1, ?_, ?_⟩
      · rw [h2, hm, Nat.add_mul, Nat.one_mul, ← List.drop_drop, List.drop_append_of_le_length (by omega)]
        rw [List.drop_of_length_le (by omega : data.length ≤ bs)]; simp
      · rw [hm, blocks_append _ _ _ _ _ (by omega), happ]
        simp [blocks, ← hdl]

end BlockBuffer
end Hashes
