import Verif.Model.Counters
import Verif.Proof.Md
/- Lemmas about checked length bookkeeping. -/
namespace Hashes.Count
variable {w : Nat}

/-- The counter does not depend on how blocks are grouped into `update_blocks` calls. -/
structure Book.Lawful (k : Book w) : Prop where
  bs_pos : 0 < k.bs
  nil : ∀ n, k.upd n 0 = some n
  app : ∀ n a b, (k.upd n a).bind (fun m => k.upd m b) = k.upd n (a + b)

theorem pos_of_content {k : BufKind} {bs : Nat} {b b' : BlockBuffer} (h : b.WF k bs) (h' : b'.WF k bs)
    (e : b.content = b'.content) : b.pos = b'.pos := by
  rw [← h.length_content, ← h'.length_content, e]

theorem Book.Lawful.core {k : Book w} (H : k.Lawful) : k.core.Lawful (fun _ => True) where
  bs_pos := H.bs_pos
  nil := fun s => by cases s <;> simp [Book.core, H.nil]
  app := fun s x y => by
    cases s with
    | none => rfl
    | some n => simpa [Book.core] using H.app n x.length y.length
  inv_init := trivial
  inv_update := fun _ _ _ _ => trivial
  reset_eq := fun _ _ => rfl
  fin_congr := fun s b b' h h' e => by simp only [Book.core, pos_of_content h h' e]

/-- Length value computed for a message given in chunks. -/
theorem Book.Lawful.finish {k : Book w} (H : k.Lawful) (l : List Bytes) :
    k.core.finish (k.core.updates k.core.new l) =
      (k.upd 0 (nFull k.kind k.bs l.flatten.length)).bind fun n =>
        k.fin n.toNat (l.flatten.length - nFull k.kind k.bs l.flatten.length * k.bs) := by
  have r := (Core.Rep.new H.core).updates H.core l
  rw [List.nil_append] at r
  have hp := r.1.length_content
  rw [r.2.2, List.length_drop] at hp
  simp only [Core.finish]
  rw [r.2.1]
  generalize (k.core.updates k.core.new l).buf = b at hp
  simp only [Book.core] at hp
  simp only [Book.core, hp, Option.bind_some, length_blocks]

theorem bump_eq (n : BitVec w) (k : Nat) :
    bump w n k = if n.toNat + k < 2 ^ w then some (n + BitVec.ofNat w k) else none := by
  unfold bump add
  split
  · simp only [Option.map_some, Option.some.injEq]
    apply BitVec.eq_of_toNat_eq
    simp
  · rfl

theorem bump_nil (n : BitVec w) : bump w n 0 = some n := by
  rw [bump_eq, if_pos (by have := n.isLt; omega)]; simp

theorem bump_app (n : BitVec w) (a b : Nat) : (bump w n a).bind (fun m => bump w m b) = bump w n (a + b) := by
  rw [bump_eq, bump_eq]
  split
  · rename_i h
    simp only [Option.bind_some, bump_eq]
    have e : (n + BitVec.ofNat w a).toNat = n.toNat + a := by
      have ha : a < 2 ^ w := by omega
      simp [BitVec.toNat_add, Nat.mod_eq_of_lt ha, Nat.mod_eq_of_lt h]
    rw [e, ← Nat.add_assoc, BitVec.ofNat_add, BitVec.add_assoc]
  · rename_i h
    rw [if_neg (by omega)]; rfl

theorem wbump_app (n : BitVec w) (a b : Nat) : (wbump w n a).bind (fun m => wbump w m b) = wbump w n (a + b) := by
  simp [wbump, BitVec.ofNat_add, BitVec.add_assoc]

theorem bump_zero (k : Nat) : bump w 0 k = if k < 2 ^ w then some (BitVec.ofNat w k) else none := by
  rw [bump_eq]; simp

theorem perBlock_eq (bs : Nat) (n : W64) (k : Nat) : perBlock bs n k = bump 64 n (k * bs) := by
  induction k generalizing n with
  | zero => rw [Nat.zero_mul, bump_nil]; rfl
  | succ k ih =>
    simp only [perBlock, ih]
    rw [bump_app, Nat.succ_mul, Nat.add_comm]

theorem lawful_bump {kd : BufKind} {bs : Nat} {f : Nat → Nat → Option Nat} (h : 0 < bs) : (⟨kd, bs, bump w, f⟩ : Book w).Lawful :=
  ⟨h, bump_nil, bump_app⟩
theorem lawful_wbump {kd : BufKind} {bs : Nat} {f : Nat → Nat → Option Nat} (h : 0 < bs) : (⟨kd, bs, wbump w, f⟩ : Book w).Lawful :=
  ⟨h, fun n => by simp [wbump], wbump_app⟩
theorem lawful_perBlock {kd : BufKind} {bs : Nat} {f : Nat → Nat → Option Nat} (h : 0 < bs) :
    (⟨kd, bs, perBlock bs, f⟩ : Book 64).Lawful :=
  ⟨h, fun n => rfl, fun n a b => by simp only [perBlock_eq]; rw [bump_app, Nat.add_mul]⟩

/-- Eager bookkeeping with a checked block counter. -/
theorem finish_bump {bs : Nat} {f : Nat → Nat → Option Nat} (h : 0 < bs) (l : List Bytes) :
    let k : Book w := ⟨.eager, bs, bump w, f⟩
    k.core.finish (k.core.updates k.core.new l) =
      if l.flatten.length / bs < 2 ^ w then f (l.flatten.length / bs) (l.flatten.length % bs) else none := by
  intro k
  rw [(lawful_bump h : k.Lawful).finish]
  simp only [nFull, bump_zero]
  split
  · rename_i hl
    simp only [Option.bind_some, BitVec.toNat_ofNat, Nat.mod_eq_of_lt hl]
    congr 1
    have := Nat.div_add_mod l.flatten.length bs
    rw [Nat.mul_comm] at this; omega
  · rfl

/-- Eager bookkeeping with a wrapping block counter. -/
theorem finish_wbump {bs : Nat} {f : Nat → Nat → Option Nat} (h : 0 < bs) (l : List Bytes) :
    let k : Book w := ⟨.eager, bs, wbump w, f⟩
    k.core.finish (k.core.updates k.core.new l) = f (l.flatten.length / bs % 2 ^ w) (l.flatten.length % bs) := by
  intro k
  rw [(lawful_wbump h : k.Lawful).finish]
  simp only [nFull, wbump, Option.bind_some]
  congr 1
  · simp
  · have := Nat.div_add_mod l.flatten.length bs
    rw [Nat.mul_comm] at this; omega

/-- Lazy bookkeeping counting bytes. -/
theorem finish_bytes {bs : Nat} (h : 0 < bs) (l : List Bytes) :
    let k : Book 64 := ⟨.lazy, bs, perBlock bs, add 64⟩
    k.core.finish (k.core.updates k.core.new l) = if l.flatten.length < 2 ^ 64 then some l.flatten.length else none := by
  intro k
  rw [(lawful_perBlock h : k.Lawful).finish]
  have hle : nFull .lazy bs l.flatten.length * bs ≤ l.flatten.length := nFull_mul_le
  simp only [perBlock_eq, bump_zero]
  generalize nFull .lazy bs l.flatten.length * bs = x at *
  by_cases hx : x < 2 ^ 64
  · rw [if_pos hx]
    simp only [Option.bind_some, BitVec.toNat_ofNat, Nat.mod_eq_of_lt hx, add]
    rw [show x + (l.flatten.length - x) = l.flatten.length by omega]
  · rw [if_neg hx, if_neg (by omega)]; rfl

/-- `8 * (pos + bs * n)` in checked arithmetic is exactly the bit length, or a panic. -/
theorem bitLen_checked {w bs n pos : Nat} : bitLen w bs n pos = if 8 * (bs * n + pos) < 2 ^ w then some (8 * (bs * n + pos)) else none := by
  unfold bitLen mul add
  generalize bs * n = x
  by_cases h1 : x < 2 ^ w
  · rw [if_pos h1, Option.bind_some]
    by_cases h2 : pos + x < 2 ^ w
    · rw [if_pos h2, Option.bind_some, Nat.add_comm]
    · rw [if_neg h2, if_neg (by omega)]; rfl
  · rw [if_neg h1, if_neg (by omega)]; rfl

theorem bitLen_checked' {w bs n pos : Nat} :
    ((mul w n bs).bind fun x => (add w x pos).bind fun y => mul w 8 y) =
      if 8 * (bs * n + pos) < 2 ^ w then some (8 * (bs * n + pos)) else none := by
  unfold mul add
  rw [Nat.mul_comm n bs]
  generalize bs * n = x
  by_cases h1 : x < 2 ^ w
  · rw [if_pos h1, Option.bind_some]
    by_cases h2 : x + pos < 2 ^ w
    · rw [if_pos h2, Option.bind_some]
    · rw [if_neg h2, if_neg (by omega)]; rfl
  · rw [if_neg h1, if_neg (by omega)]; rfl

theorem bitLen_wrapping {n pos : Nat} {a b : Nat} (hab : n * b = a) :
    ((a % 2 ^ 64 + pos) % 2 ^ 64 * 8) % 2 ^ 64 = 8 * (n * b + pos) % 2 ^ 64 := by
  subst hab; omega

end Hashes.Count

namespace Hashes

/-- `digest_blocks` with two compression functions run in lockstep: same buffer, related states. Each call gets whole blocks,
at most as many as the input has (or one). -/
theorem digestBlocks_rel {σ τ : Type} (R : σ → τ → Prop) {k : BufKind} {bs : Nat} {b : BlockBuffer} (hbs : 0 < bs)
    (wf : b.WF k bs) (input : Bytes) (f : σ → List Bytes → σ) (g : τ → List Bytes → τ) (s : σ) (t : τ)
    (step : ∀ s t blks, (∀ x ∈ blks, x.length = bs) → blks.length ≤ max 1 (input.length / bs) → R s t → R (f s blks) (g t blks))
    (h : R s t) :
    (b.digestBlocks k bs input f s).1 = (b.digestBlocks k bs input g t).1 ∧
      R (b.digestBlocks k bs input f s).2 (b.digestBlocks k bs input g t).2 := by
  have tail : ∀ (inp : Bytes) (s : σ) (t : τ), inp.length ≤ input.length → R s t →
      let blks := blocks bs (BlockBuffer.splitCount k bs inp.length) inp
      R (if blks.isEmpty then s else f s blks) (if blks.isEmpty then t else g t blks) := by
    intro inp s t hle h blks
    split
    · exact h
    · have hle' : nFull k bs inp.length * bs ≤ inp.length := nFull_mul_le
      refine step _ _ _ (fun x hx => length_of_mem_blocks ?_ hx) ?_ h
      · rw [splitCount_eq hbs]; exact hle'
      · simp only [blks, length_blocks, splitCount_eq hbs]
        exact Nat.le_trans (Nat.le_trans ((Nat.le_div_iff_mul_le hbs).2 hle') (Nat.div_le_div_right hle)) (Nat.le_max_right _ _)
  unfold BlockBuffer.digestBlocks
  by_cases hf : BlockBuffer.fits k input.length (bs - b.pos) = true
  · simp only [if_pos hf]; exact ⟨trivial, h⟩
  · simp only [if_neg hf]
    by_cases hp : b.pos = 0
    · simp only [hp, ne_eq, not_true_eq_false, if_false]
      exact ⟨trivial, tail input s t (Nat.le_refl _) h⟩
    · simp only [ne_eq, hp, not_false_eq_true, if_true]
      refine ⟨trivial, tail _ _ _ (by simp) (step _ _ _ ?_ (Nat.le_max_left _ _) h)⟩
      intro x hx
      rw [List.mem_singleton] at hx
      subst hx
      have := wf.pos_le
      rw [length_overwrite (by rw [wf.1, List.length_take]; omega), wf.1]

/-- Two cores with the same buffering run in lockstep, from any hashers with the same buffer. -/
theorem updates_rel_from {σ τ ω ω' : Type} {inv : σ → Prop} {c : Core σ ω} (L : c.Lawful inv) {d : Core τ ω'} (R : σ → τ → Prop)
    (hk : d.kind = c.kind) (hb : d.bs = c.bs) (l : List Bytes) (h : Hasher σ) (h' : Hasher τ)
    (step : ∀ x ∈ l, ∀ s t blks, (∀ b ∈ blks, b.length = c.bs) → blks.length ≤ max 1 (x.length / c.bs) → R s t →
      R (c.updateBlocks s blks) (d.updateBlocks t blks))
    (wf : h.buf.WF c.kind c.bs) (e : h.buf = h'.buf) (r : R h.core h'.core) :
    (c.updates h l).buf = (d.updates h' l).buf ∧ R (c.updates h l).core (d.updates h' l).core ∧ (c.updates h l).buf.WF c.kind c.bs := by
  induction l generalizing h h' with
  | nil => exact ⟨e, r, wf⟩
  | cons x l ih =>
    have hr := digestBlocks_rel R L.bs_pos wf x c.updateBlocks d.updateBlocks h.core h'.core (step x List.mem_cons_self) r
    refine ih (c.update h x) (d.update h' x) (fun y hy => step y (List.mem_cons_of_mem _ hy)) ?_ ?_ ?_
    · exact (BlockBuffer.digestBlocks_spec L.bs_pos wf x c.updateBlocks h.core L.nil L.app).1
    · simp only [Core.update, hk, hb, ← e]; exact hr.1
    · simp only [Core.update, hk, hb, ← e]; exact hr.2

/-- Two cores with the same buffering run in lockstep. -/
theorem updates_rel {σ τ ω ω' : Type} {inv : σ → Prop} {c : Core σ ω} (L : c.Lawful inv) {d : Core τ ω'} (R : σ → τ → Prop)
    (hk : d.kind = c.kind) (hb : d.bs = c.bs) (hi : R c.init d.init) (l : List Bytes)
    (step : ∀ x ∈ l, ∀ s t blks, (∀ b ∈ blks, b.length = c.bs) → blks.length ≤ max 1 (x.length / c.bs) → R s t →
      R (c.updateBlocks s blks) (d.updateBlocks t blks)) :
    (c.updates c.new l).buf = (d.updates d.new l).buf ∧ R (c.updates c.new l).core (d.updates d.new l).core := by
  have h := updates_rel_from L R hk hb l c.new d.new step (Core.Rep.new L).1 (by simp only [Core.new, hb]) hi
  exact ⟨h.1, h.2.1⟩

end Hashes
