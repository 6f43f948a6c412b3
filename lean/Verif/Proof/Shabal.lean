import Verif.Model.Shabal
import Verif.Spec.Shabal
import Verif.Proof.Md
/- Helper lemmas: the modelled Shabal equals its specification. -/
namespace Hashes
namespace Shabal
open Spec.Shabal (P round step)

/-- State of the specification. -/
def abs (s : State) : Spec.Shabal.St := ⟨s.a, s.b, s.c⟩

/-! ### Permutation -/

/-- The index row of step `(i, j)`. -/
def row (j i : Nat) : List Nat :=
  [(i + 16 * j) % 12, (i + 11 + 16 * j) % 12, i, (i + 13) % 16, (i + 9) % 16, (i + 6) % 16, (24 - i) % 16, i]

theorem permTable_eq : permTable = (List.range 3).flatMap fun j => (List.range 16).map (row j) := by decide +kernel

theorem not_xor' (x y : W32) : ~~~(x ^^^ y) = x ^^^ ~~~y := by
  apply BitVec.eq_of_getLsbD_eq
  intro i hi
  simp [hi]

theorem permElt_step (s : State) (m : Arr 32 16) (i j : Nat) (r : List Nat) (hr : r = row j i) :
    permElt s (r.getD 0 0) (r.getD 1 0) (r.getD 2 0) (r.getD 3 0) (r.getD 4 0) (r.getD 5 0) (r.getD 6 0) (m.get (r.getD 7 0)) =
      { s with a := (step s.c m (s.a, s.b) i j).1, b := (step s.c m (s.a, s.b) i j).2 } := by
  subst hr
  simp only [row, List.getD_cons_zero, List.getD_cons_succ, permElt, step, Spec.Shabal.U, Spec.Shabal.V, not_xor',
    BitVec.mul_comm]

theorem foldl_step (l : List Nat) (j : Nat) (s : State) (m : Arr 32 16) :
    (l.map (row j)).foldl (fun s r =>
      permElt s (r.getD 0 0) (r.getD 1 0) (r.getD 2 0) (r.getD 3 0) (r.getD 4 0) (r.getD 5 0) (r.getD 6 0) (m.get (r.getD 7 0))) s =
    { s with a := (l.foldl (fun ab i => step s.c m ab i j) (s.a, s.b)).1, b := (l.foldl (fun ab i => step s.c m ab i j) (s.a, s.b)).2 } := by
  induction l generalizing s with
  | nil => rfl
  | cons i l ih =>
    rw [List.map_cons, List.foldl_cons, permElt_step _ _ i j _ rfl, ih]
    rfl

theorem foldl_steps (l : List Nat) (s : State) (m : Arr 32 16) :
    (l.flatMap fun j => (List.range 16).map (row j)).foldl (fun s r =>
      permElt s (r.getD 0 0) (r.getD 1 0) (r.getD 2 0) (r.getD 3 0) (r.getD 4 0) (r.getD 5 0) (r.getD 6 0) (m.get (r.getD 7 0))) s =
    { s with
      a := (l.foldl (fun ab j => (List.range 16).foldl (fun ab i => step s.c m ab i j) ab) (s.a, s.b)).1
      b := (l.foldl (fun ab j => (List.range 16).foldl (fun ab i => step s.c m ab i j) ab) (s.a, s.b)).2 } := by
  induction l generalizing s with
  | nil => rfl
  | cons j l ih =>
    rw [List.flatMap_cons, List.foldl_append, foldl_step, ih]
    rfl

theorem accum (c : Nat → W32) (a : Arr 32 12) (n i : Nat) (hi : i < 12) :
    ((List.range n).foldl (fun A j => Arr.set A (j % 12) (A.get (j % 12) + c j)) a).get i =
      (List.range n).foldl (fun x j => if j % 12 = i then x + c j else x) (a.get i) := by
  induction n with
  | zero => rfl
  | succ n ih =>
    rw [List.range_succ, List.foldl_append, List.foldl_append]
    simp only [List.foldl_cons, List.foldl_nil]
    rw [Arr.get_set _ _ _ _ (Nat.mod_lt _ (by decide)), ih]
    by_cases h : n % 12 = i
    · subst h; rw [if_pos rfl, if_pos rfl, ih]
    · simp [h, Ne.symm h]

theorem fold36 {α : Type} (g : α → Nat → α) (x : α) (i : Nat) (hi : i < 12) :
    (List.range 36).foldl (fun x j => if j % 12 = i then g x j else x) x = g (g (g x i) (i + 12)) (i + 24) := by
  match i, hi with
  | 0, _ | 1, _ | 2, _ | 3, _ | 4, _ | 5, _ | 6, _ | 7, _ | 8, _ | 9, _ | 10, _ | 11, _ => rfl

theorem addTable_eq : ∀ i < 12, addTable.getD i (0, 0, 0) = ((i + 24 + 3) % 16, (i + 12 + 3) % 16, (i + 3) % 16) := by decide

theorem add_eq (a : Arr 32 12) (c : Arr 32 16) :
    (Arr.ofFn 12 fun i => a.get i + (c.get (addTable.getD i (0, 0, 0)).1 + c.get (addTable.getD i (0, 0, 0)).2.1 +
      c.get (addTable.getD i (0, 0, 0)).2.2)) =
    (List.range 36).foldl (fun A j => A.set (j % 12) (A.get (j % 12) + c.get ((j + 3) % 16))) a := by
  apply Arr.ext_get
  intro i hi
  rw [accum (fun j => c.get ((j + 3) % 16)) a 36 i hi, fold36 (fun x j => x + c.get ((j + 3) % 16)) _ i hi, Arr.get_ofFn _ hi,
    addTable_eq i hi]
  have hadd : ∀ x y z w : W32, x + y + z + w = x + (w + z + y) := fun x y z w => by
    rw [BitVec.add_assoc, BitVec.add_assoc, ← BitVec.add_assoc y, BitVec.add_comm (y + z), BitVec.add_comm y, BitVec.add_assoc w]
  rw [hadd]

theorem perm_eq (s : State) (m : Arr 32 16) : perm s m = { s with a := (P s.c m s.a s.b).1, b := (P s.c m s.a s.b).2 } := by
  simp only [perm, permBlocks, permTable_eq, foldl_steps, add_eq, P]

/-- Exclusive or of the counter into the first two words. -/
def xorA (w : W64) (a : Arr 32 12) : Arr 32 12 := Arr.ofFn 12 fun i =>
  if i = 0 then a.get 0 ^^^ w.extractLsb' 0 32 else if i = 1 then a.get 1 ^^^ w.extractLsb' 32 32 else a.get i

theorem xorW_eq (s : State) : xorW s = { s with a := xorA s.w s.a } := by
  have h1 : s.w.truncate 32 = s.w.extractLsb' 0 32 := by
    apply BitVec.eq_of_getLsbD_eq; intro i hi; simp [hi]
  have h2 : (s.w >>> 32).truncate 32 = s.w.extractLsb' 32 32 := by
    apply BitVec.eq_of_getLsbD_eq; intro i hi; simp [hi]
  simp only [xorW, h1, h2]
  congr 1
  apply Arr.ext_get
  intro i hi
  rw [xorA, Arr.get_ofFn _ hi, Arr.get_set _ _ _ _ (by decide), Arr.get_set _ _ _ _ (by decide), Arr.get_set _ _ _ _ (by decide)]
  by_cases h0 : i = 0
  · subst h0; simp
  · by_cases h1 : i = 1
    · subst h1; simp
    · simp [h0, h1, Ne.symm h0, Ne.symm h1]

/-- The common part of a round: add the block, xor the counter, permute, subtract the block, swap. -/
theorem round_eq (s : State) (m : Arr 32 16) : abs (swapBC (subM (perm (xorW (addM s m)) m) m)) = round s.w (abs s) m := by
  simp only [perm_eq, xorW_eq, abs, swapBC, subM, addM, round, xorA]

theorem w_round (s : State) (m : Arr 32 16) : (swapBC (subM (perm (xorW (addM s m)) m) m)).w = s.w := by
  simp only [perm_eq, xorW_eq, swapBC, subM, addM]

theorem w_perm (s : State) (m : Arr 32 16) : (perm (xorW (addM s m)) m).w = s.w := by
  simp only [perm_eq, xorW_eq, addM]

theorem readM_eq (b : Bytes) : readM b = Spec.Shabal.words b := rfl

theorem fold_eq (l : List Bytes) (s : State) :
    abs (l.foldl compress s) =
      (List.range l.length).foldl (fun t i => round (s.w + BitVec.ofNat 64 i) t (Spec.Shabal.words (l.getD i []))) (abs s) ∧
    (l.foldl compress s).w = s.w + BitVec.ofNat 64 l.length := by
  induction l generalizing s with
  | nil => exact ⟨rfl, (BitVec.add_zero _).symm⟩
  | cons x l ih =>
    obtain ⟨h1, h2⟩ := ih (compress s x)
    have hw : (compress s x).w = s.w + 1 := by
      simp only [compress, w_round]
    have ha : abs (compress s x) = round s.w (abs s) (Spec.Shabal.words x) := by
      rw [← readM_eq, ← round_eq]; rfl
    rw [List.foldl_cons]
    refine ⟨?_, ?_⟩
    · rw [h1, List.length_cons, List.range_succ_eq_map, List.foldl_cons, List.foldl_map, ha, hw]
      simp only [List.getD_cons_succ, List.getD_cons_zero, Nat.succ_eq_add_one]
      have e : ∀ i, s.w + 1 + BitVec.ofNat 64 i = s.w + BitVec.ofNat 64 (i + 1) := fun i => by
        rw [BitVec.add_assoc, show (1 : W64) = BitVec.ofNat 64 1 from rfl, ← BitVec.ofNat_add, Nat.add_comm]
      simp only [e]
      rw [show s.w + BitVec.ofNat 64 0 = s.w from BitVec.add_zero _]
    · rw [h2, hw, BitVec.add_assoc, show (1 : W64) = BitVec.ofNat 64 1 from rfl, ← BitVec.ofNat_add, Nat.add_comm,
        List.length_cons]

/-! ### Finalization: the subtraction and addition of the last block cancel -/

/-- The finalization loop state: like a round of the specification but before the subtraction and swap. -/
theorem final_step (s : State) (m : Arr 32 16) :
    abs (swapBC (subM (perm (xorW (swapBC s)) m) m)) = round s.w (abs (swapBC (subM s m))) m ∧
    (perm (xorW (swapBC s)) m).w = s.w := by
  have e : swapBC s = addM (swapBC (subM s m)) m := by
    simp only [swapBC, addM, subM]
    congr 1
    apply Arr.ext_get
    intro i hi
    rw [Arr.get_ofFn _ hi, Arr.get_ofFn _ hi, BitVec.sub_add_cancel]
  refine ⟨?_, ?_⟩
  · rw [e, round_eq]; simp only [swapBC, subM]
  · simp only [perm_eq, xorW_eq, swapBC]

theorem final_eq (s : State) (m : Arr 32 16) (n : Nat) :
    abs (swapBC (subM ((List.range n).foldl (fun s _ => perm (xorW (swapBC s)) m) s) m)) =
      (List.range n).foldl (fun t _ => round s.w t m) (abs (swapBC (subM s m))) ∧
    ((List.range n).foldl (fun s _ => perm (xorW (swapBC s)) m) s).w = s.w := by
  induction n with
  | zero => exact ⟨rfl, rfl⟩
  | succ n ih =>
    rw [List.range_succ, List.foldl_append, List.foldl_append]
    simp only [List.foldl_cons, List.foldl_nil]
    obtain ⟨h1, h2⟩ := final_step ((List.range n).foldl (fun s _ => perm (xorW (swapBC s)) m) s) m
    exact ⟨by rw [h1, ih.1, ih.2], h2.trans ih.2⟩

theorem foldl_congr' {α β : Type} {l : List β} {f g : α → β → α} (h : ∀ t, ∀ i ∈ l, f t i = g t i) (t : α) : l.foldl f t = l.foldl g t := by
  induction l generalizing t with
  | nil => rfl
  | cons x l ih =>
    rw [List.foldl_cons, List.foldl_cons, h t x List.mem_cons_self]
    exact ih (fun t i hi => h t i (List.mem_cons_of_mem _ hi)) _

/-! ### Interface laws -/

theorem lawful : varCore.Lawful where
  bs_pos := by decide
  nil := fun s => rfl
  app := fun s x y => by simp [varCore, updateBlocks]
  fin_congr := fun s b b' h h' hc => by
    have hpos : b.pos = b'.pos := pos_congr h h' hc
    simp only [varCore, finalizeFull]
    simp only [BlockBuffer.content] at hc
    simp only [BlockBuffer.padWithZeros, hc]
    rw [hpos]

theorem arr_round {w n : Nat} (hw : 8 ∣ w) (a : Arr w n) : Arr.ofFn n (wordLE w (bytesOfWordsLE a.toList)) = a := by
  apply Arr.ext_get
  intro i hi
  rw [Arr.get_ofFn _ hi]
  have := wordLE_append hw a.toList [] (0 : BitVec w) (i := i) (by simpa using hi)
  rwa [List.append_nil] at this

theorem arr_canon {w n : Nat} (hw : 8 ∣ w) (l : Bytes) (hl : l.length = w / 8 * n) :
    bytesOfWordsLE (Arr.ofFn n (wordLE w l)).toList = l := by
  rw [show (Arr.ofFn n (wordLE w l)).toList = (List.range n).map (wordLE w l) from rfl,
    bytesOfWordsLE_range hw _ _ (by rw [hl, Nat.mul_comm]; exact Nat.le_refl _),
    List.take_of_length_le (by rw [hl, Nat.mul_comm]; exact Nat.le_refl _)]

theorem serLawful : varCore.SerLawful where
  bs_le := by decide
  len := fun s => by simp [varCore, serialize, length_bytesOfWordsLE]
  round := fun s => by
    simp only [varCore, deserialize, serialize]
    have hA : (bytesOfWordsLE s.a.toList).length = 48 := by simp [length_bytesOfWordsLE]
    have hB : (bytesOfWordsLE s.b.toList).length = 64 := by simp [length_bytesOfWordsLE]
    have hC : (bytesOfWordsLE s.c.toList).length = 64 := by simp [length_bytesOfWordsLE]
    have h8 : (leBytes 8 s.w.toNat).length = 8 := by simp
    rw [if_pos (by simp only [List.length_append, hA, hB, hC, h8])]
    have e1 : ∀ x y z v : Bytes, x.length = 48 → (x ++ y ++ z ++ v).take 48 = x := fun x y z v h => by
      rw [List.append_assoc, List.append_assoc, List.take_left' h]
    have e2 : ∀ x y z v : Bytes, x.length = 48 → y.length = 64 → ((x ++ y ++ z ++ v).drop 48).take 64 = y := fun x y z v h h' => by
      rw [List.append_assoc, List.append_assoc, List.drop_left' h, List.take_left' h']
    have e3 : ∀ x y z v : Bytes, x.length = 48 → y.length = 64 → z.length = 64 → ((x ++ y ++ z ++ v).drop 112).take 64 = z :=
      fun x y z v h h' h'' => by
        rw [List.append_assoc _ z v, List.drop_left' (by simp [h, h']), List.take_left' h'']
    have e4 : ∀ x y z v : Bytes, x.length = 48 → y.length = 64 → z.length = 64 → (x ++ y ++ z ++ v).drop 176 = v :=
      fun x y z v h h' h'' => by
        rw [List.drop_left' (by simp [h, h', h''])]
    rw [e1 _ _ _ _ hA, e2 _ _ _ _ hA hB, e3 _ _ _ _ hA hB hC, e4 _ _ _ _ hA hB hC, arr_round (by decide), arr_round (by decide),
      arr_round (by decide), counter_round (by decide)]
  canon := fun raw s h => by
    simp only [varCore, deserialize, serialize] at h ⊢
    split at h
    · rename_i hl
      injection h with h
      subst h
      rw [arr_canon (by decide) _ (by simp; omega), arr_canon (by decide) _ (by simp; omega), arr_canon (by decide) _ (by simp; omega),
        counter_canon (by decide) (by simp; omega), List.append_assoc, List.append_assoc]
      rw [show raw.drop 176 = (raw.drop 112).drop 64 by rw [List.drop_drop], List.take_append_drop,
        show raw.drop 112 = (raw.drop 48).drop 64 by rw [List.drop_drop], List.take_append_drop, List.take_append_drop]
    · cases h

theorem iv_eq {N : Nat} {s0 : State} (h0 : new N = some s0) : abs s0 = Spec.Shabal.iv N ∧ s0.w = 1 ∧ N ≤ 64 := by
  unfold new at h0
  split at h0
  · injection h0 with h0; subst h0; exact ⟨by decide +kernel, rfl, by decide⟩
  · injection h0 with h0; subst h0; exact ⟨by decide +kernel, rfl, by decide⟩
  · injection h0 with h0; subst h0; exact ⟨by decide +kernel, rfl, by decide⟩
  · injection h0 with h0; subst h0; exact ⟨by decide +kernel, rfl, by decide⟩
  · injection h0 with h0; subst h0; exact ⟨by decide +kernel, rfl, by decide⟩
  · cases h0

attribute [local irreducible] perm round xorW addM subM compress

theorem digest_eq {N : Nat} {s0 : State} (h0 : new N = some s0) (m : Bytes) :
    (varCore.ctWith N s0).digest m = Spec.Shabal.hash N m := by
  obtain ⟨hiv, hw, hN⟩ := iv_eq h0
  obtain ⟨b, h1, h2, h3, h4⟩ := Core.digest_eager (lawful.ct N s0) rfl m
  rw [h4]
  simp only [varCore, VarCore.ctWith] at h1 h2 h3 ⊢
  have hlt := Nat.mod_lt m.length (show 64 > 0 by decide)
  -- the last block
  have hlast : (b.padWithZeros 64).1.set b.pos 0x80 = b.content ++ [0x80] ++ List.replicate (63 - b.pos) 0 := by
    have hl : b.content.length = b.pos := h1.length_content
    rw [show (b.padWithZeros 64).1 = b.content ++ List.replicate (64 - b.pos) 0 from rfl,
      show 64 - b.pos = (63 - b.pos) + 1 by omega, List.replicate_succ, List.set_append_right _ _ (by omega), hl, Nat.sub_self,
      List.set_cons_zero, List.append_assoc]
    rfl
  have hch : chunks 64 (Spec.mdPad 64 0x80 [] m) = blocks 64 (m.length / 64) m ++ [(b.padWithZeros 64).1.set b.pos 0x80] := by
    rw [chunks_mdPad (by decide), ← h2, Spec.mdPad, hlast]
    have hl : b.content.length = b.pos := h1.length_content
    have hz : Spec.zeroFill 64 (b.content.length + 1 + ([] : Bytes).length) = 63 - b.pos := by
      rw [hl, Spec.zeroFill, List.length_nil]; omega
    rw [hz, List.append_nil]
    congr 1
    have : (b.content ++ [0x80] ++ List.replicate (63 - b.pos) (0 : Byte)).length = 64 := by simp [hl]; omega
    rw [chunks, this]
    show [_] = _
    rw [List.take_of_length_le (by omega)]
  generalize hB : (b.padWithZeros 64).1.set b.pos 0x80 = last at hch
  have hk : (blocks 64 (m.length / 64) m).length = m.length / 64 := length_blocks ..
  simp only [Spec.Shabal.hash, hch, List.length_append, List.length_singleton, hk, Nat.add_sub_cancel]
  have hgl : (blocks 64 (m.length / 64) m ++ [last]).getD (m.length / 64) [] = last := by
    rw [List.getD_eq_getElem?_getD, List.getElem?_append_right (by omega), hk, Nat.sub_self]; rfl
  obtain ⟨f1, f2⟩ := fold_eq (blocks 64 (m.length / 64) m) s0
  have hcongr : (List.range (m.length / 64)).foldl (fun t i => round (BitVec.ofNat 64 (i + 1)) t
        (Spec.Shabal.words ((blocks 64 (m.length / 64) m ++ [last]).getD i []))) (Spec.Shabal.iv N) =
      abs ((blocks 64 (m.length / 64) m).foldl compress s0) := by
    rw [f1, hiv, hk, hw]
    apply foldl_congr'
    intro t i hi
    have hi : i < m.length / 64 := List.mem_range.1 hi
    rw [show (1 : W64) = BitVec.ofNat 64 1 from rfl, ← BitVec.ofNat_add, Nat.add_comm 1, List.getD_eq_getElem?_getD,
      List.getElem?_append_left (by omega), ← List.getD_eq_getElem?_getD]
  rw [List.range_succ, List.foldl_append, hcongr, hgl]
  simp only [List.foldl_cons, List.foldl_nil, finalizeFull, hB, updateBlocks, readM_eq]
  generalize hS : (blocks 64 (m.length / 64) m).foldl compress s0 = S at *
  have hSw : S.w = BitVec.ofNat 64 (m.length / 64 + 1) := by
    rw [f2, hw, hk, show (1 : W64) = BitVec.ofNat 64 1 from rfl, ← BitVec.ofNat_add, Nat.add_comm]
  rw [← hSw, hgl, ← round_eq]
  have hpw := w_perm S (Spec.Shabal.words last)
  obtain ⟨g1, g2⟩ := final_eq (perm (xorW (addM S (Spec.Shabal.words last))) (Spec.Shabal.words last)) (Spec.Shabal.words last) 3
  rw [hpw] at g1
  rw [← g1]
  generalize (List.range 3).foldl _ _ = T
  have hT : (abs (swapBC (subM T (Spec.Shabal.words last)))).C = T.b := by
    unfold subM; rfl
  rw [hT, truncate]
  simp only [length_bytesOfWordsLE, Arr.length_toList]

end Shabal
end Hashes
