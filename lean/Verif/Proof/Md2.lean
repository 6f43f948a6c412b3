import Verif.Model.Md2
import Verif.Spec.Md
import Verif.Proof.Md
/- Helper lemmas: the modelled MD2 equals RFC 1319. -/
namespace Hashes
namespace Md2

theorem S_eq : Spec.Md2.PI_SUBST = S := by decide +kernel

theorem pass_eq_aux (x : Bytes) (t : Byte) (acc : Bytes) :
    x.foldl (fun (acc : Bytes × Byte) b => let b' := b ^^^ Spec.Md2.PI_SUBST.getD acc.2.toNat 0; (acc.1 ++ [b'], b'))
      (acc, t) = (acc ++ (pass x t).1, (pass x t).2) := by
  induction x generalizing t acc with
  | nil => simp [pass]
  | cons b l ih =>
    rw [List.foldl_cons]
    simp only
    rw [ih]
    simp [pass, s, S_eq]

theorem pass_eq (x : Bytes) (t : Byte) : Spec.Md2.pass x t = pass x t := by
  rw [Spec.Md2.pass, pass_eq_aux]; simp

theorem rounds_eq (x : Bytes) (n : Nat) :
    (List.range n).foldl (fun (a : Bytes × Byte) j => let p := Spec.Md2.pass a.1 a.2; (p.1, p.2 + BitVec.ofNat 8 j)) (x, 0)
      = rounds x n := by
  induction n with
  | zero => rfl
  | succ n ih => rw [List.range_succ, List.foldl_append, ih]; simp [rounds, pass_eq]

theorem length_pass (x : Bytes) (t : Byte) : (pass x t).1.length = x.length := by
  induction x generalizing t with
  | nil => rfl
  | cons b l ih => simp [pass, ih]

theorem length_rounds (x : Bytes) (n : Nat) : (rounds x n).1.length = x.length := by
  induction n with
  | zero => rfl
  | succ n ih => simp [rounds, length_pass, ih]

theorem checksumLoop_eq (c b : Bytes) (l : Byte) : checksumLoop (c.zip b) l = Spec.Md2.checksumBlock c b l := by
  induction c generalizing b l with
  | nil => simp [checksumLoop, Spec.Md2.checksumBlock]
  | cons x c ih =>
    cases b with
    | nil => simp [checksumLoop, Spec.Md2.checksumBlock]
    | cons y b => simp [checksumLoop, Spec.Md2.checksumBlock, ih, s, S_eq]

theorem length_checksumLoop (x : List (Byte × Byte)) (l : Byte) : (checksumLoop x l).length = x.length := by
  induction x generalizing l with
  | nil => rfl
  | cons p x ih => simp [checksumLoop, ih]

/-- Shape of the state arrays. -/
def Shape (st : State) : Prop := st.x.length = 48 ∧ st.checksum.length = 16

theorem compress_shape {st : State} {b : Bytes} (h : Shape st) (hb : b.length = 16) : Shape (compress st b) := by
  obtain ⟨h1, h2⟩ := h
  constructor
  · simp [compress, length_rounds, h1, hb]
  · simp [compress, length_checksumLoop, h2, hb]

theorem compress_eq {st : State} (h : Shape st) (b : Bytes) :
    compress st b = ⟨Spec.Md2.digestBlock st.x b, Spec.Md2.checksumBlock st.checksum b (st.checksum.getLastD 0)⟩ := by
  have hg : st.checksum.getD 15 0 = st.checksum.getLastD 0 := by
    rw [List.getLastD_eq_getLast?, List.getLast?_eq_getElem?, h.2]; rfl
  simp only [compress, Spec.Md2.digestBlock]
  rw [rounds_eq, checksumLoop_eq, hg]

attribute [local irreducible] compress Spec.Md2.digestBlock Spec.Md2.checksumBlock

theorem foldl_shape {st : State} (h : Shape st) (l : List Bytes) (hl : ∀ b ∈ l, b.length = 16) :
    Shape (l.foldl compress st) := by
  induction l generalizing st with
  | nil => exact h
  | cons b l ih =>
    rw [List.foldl_cons]
    exact ih (compress_shape h (hl b List.mem_cons_self)) fun c hc => hl c (List.mem_cons_of_mem _ hc)

theorem foldl_eq {st : State} (h : Shape st) (l : List Bytes) (hl : ∀ b ∈ l, b.length = 16) :
    l.foldl compress st = ⟨l.foldl Spec.Md2.digestBlock st.x,
      l.foldl (fun C B => Spec.Md2.checksumBlock C B (C.getLastD 0)) st.checksum⟩ := by
  induction l generalizing st with
  | nil => rfl
  | cons b l ih =>
    rw [List.foldl_cons, ih (compress_shape h (hl b List.mem_cons_self)) fun c hc => hl c (List.mem_cons_of_mem _ hc), compress_eq h,
      List.foldl_cons, List.foldl_cons]

theorem shape_init : Shape init := ⟨rfl, rfl⟩

theorem padBlock {b : BlockBuffer} (wf : b.WF .eager 16) :
    ((b.padWithZeros 16).1.take b.pos ++ ((b.padWithZeros 16).1.drop b.pos).map (fun _ => (BitVec.ofNat 8 (16 - b.pos) : Byte)))
      = b.content ++ List.replicate (16 - b.pos) (BitVec.ofNat 8 (16 - b.pos)) := by
  have hc := wf.length_content
  have : (b.padWithZeros 16).1 = b.content ++ List.replicate (16 - b.pos) 0 := rfl
  rw [this, List.take_left' hc, List.drop_left' hc, List.map_const']
  simp

theorem lawful : md2.Lawful Shape where
  bs_pos := by decide
  nil := fun s => rfl
  app := fun s x y => by simp [md2, updateBlocks]
  inv_init := shape_init
  inv_update := fun s x hx h => foldl_shape h x hx
  reset_eq := fun _ _ => rfl
  fin_congr := fun s b b' h h' hc => by
    simp only [md2, finalize]
    rw [padBlock h, padBlock h', hc, pos_congr h h' hc]

theorem serLawful : md2.SerLawful Shape where
  bs_le := by decide
  len := fun s h => by simp [md2, serialize, h.1, h.2]
  round := fun s h => by
    simp only [md2, serialize, deserialize]
    rw [if_pos (by simp [h.1, h.2]), List.take_left' h.1, List.drop_left' h.1]

theorem deserLawful : md2.DeserLawful where
  canon := fun raw s h => by
    simp only [md2, deserialize, serialize] at h ⊢
    split at h
    · injection h with h
      subst h
      exact List.take_append_drop _ _
    · cases h

theorem digest_eq (m : Bytes) : md2.digest m = Spec.Md2.md2 m := by
  obtain ⟨b, h1, h2, h3, h4⟩ := Core.digest_eager lawful rfl m
  rw [h4]
  simp only [md2] at h1 h2 h3 ⊢
  have hlt : b.pos < 16 := h1.2
  have hcl := h1.length_content
  have hle := Nat.div_mul_le_self m.length 16
  simp only [finalize, updateBlocks]
  rw [padBlock h1]
  -- the padded message is the full blocks plus the last block
  have hpad : chunks 16 (Spec.Md2.pad m) = blocks 16 (m.length / 16) m ++
      [b.content ++ List.replicate (16 - b.pos) (BitVec.ofNat 8 (16 - b.pos))] := by
    rw [Spec.Md2.pad, chunks_tail (by decide), ← h2, ← h3]
    rw [chunks_single (by decide) (by rw [List.length_append, List.length_replicate, hcl]; omega)]
  have hm : ∀ c ∈ chunks 16 (Spec.Md2.pad m), c.length = 16 := by
    intro c hc
    rw [hpad, List.mem_append] at hc
    rcases hc with hc | hc
    · exact length_of_mem_blocks hle hc
    · simp only [List.mem_singleton] at hc; subst hc; simp [hcl]; omega
  have hA : compress ((blocks 16 (m.length / 16) m).foldl compress init)
      (b.content ++ List.replicate (16 - b.pos) (BitVec.ofNat 8 (16 - b.pos))) =
      (chunks 16 (Spec.Md2.pad m)).foldl compress init := by
    rw [hpad, List.foldl_append]; rfl
  rw [hA, compress_eq (foldl_shape shape_init _ hm), foldl_eq shape_init _ hm, Spec.Md2.md2]
  simp only [List.foldl_append, List.foldl_cons, List.foldl_nil]
  rfl

end Md2
end Hashes
