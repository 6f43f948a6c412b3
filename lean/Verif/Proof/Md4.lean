import Verif.Model.Md4
import Verif.Spec.Md
import Verif.Proof.Md
import Verif.Proof.Words
/- Helper lemmas: the modelled MD4 equals RFC 1320. -/
namespace Hashes
namespace Md4

theorem f_eq (x y z : W32) : f x y z = Spec.Md4.F x y z := by
  apply BitVec.eq_of_getLsbD_eq
  intro i hi
  simp only [f, Spec.Md4.F, BitVec.getLsbD_xor, BitVec.getLsbD_and, BitVec.getLsbD_or, BitVec.getLsbD_not, hi]
  cases x.getLsbD i <;> cases y.getLsbD i <;> cases z.getLsbD i <;> rfl

theorem body1_eq (X : Nat → W32) (s : V4 W32) (j : Nat) (hj : j < 4) :
    body1 X (Spec.Md4.steps X (4 * j) s) (4 * j) = Spec.Md4.steps X (4 * j + 4) s := by
  generalize hs : Spec.Md4.steps X (4 * j) s = t
  simp only [Spec.Md4.steps, hs]
  match j, hj with
  | 0, _ | 1, _ | 2, _ | 3, _ => 
    simp only [body1, op, Spec.Md4.step, Spec.Md4.const, Spec.Md4.func, Spec.Md4.shift, f_eq]
    simp [Spec.Md4.index]

theorem body2_eq (X : Nat → W32) (s : V4 W32) (j : Nat) (hj : j < 4) :
    body2 X (Spec.Md4.steps X (16 + 4 * j) s) j = Spec.Md4.steps X (16 + 4 * j + 4) s := by
  generalize hs : Spec.Md4.steps X (16 + 4 * j) s = t
  simp only [Spec.Md4.steps, hs]
  match j, hj with
  | 0, _ | 1, _ | 2, _ | 3, _ => 
    simp only [body2, op, Spec.Md4.step, Spec.Md4.const, Spec.Md4.func, Spec.Md4.shift,
      show g = Spec.Md4.G from rfl, show K1 = 0x5a827999 from rfl]
    simp [Spec.Md4.index, BitVec.add_assoc]

theorem body3_eq (X : Nat → W32) (s : V4 W32) (j : Nat) (hj : j < 4) :
    body3 X (Spec.Md4.steps X (32 + 4 * j) s) ([0, 2, 1, 3].getD j 0) = Spec.Md4.steps X (32 + 4 * j + 4) s := by
  generalize hs : Spec.Md4.steps X (32 + 4 * j) s = t
  simp only [Spec.Md4.steps, hs]
  match j, hj with
  | 0, _ | 1, _ | 2, _ | 3, _ => 
    simp only [body3, op, Spec.Md4.step, Spec.Md4.const, Spec.Md4.func, Spec.Md4.shift,
      show h = Spec.Md4.H from rfl, show K2 = 0x6ed9eba1 from rfl]
    simp [Spec.Md4.index, BitVec.add_assoc]

theorem compress_eq (s : V4 W32) (input : Bytes) : compress s input = Spec.Md4.compress s input := by
  have e1 : [0, 4, 8, 12].foldl (body1 (wordLE 32 input)) s = Spec.Md4.steps (wordLE 32 input) 16 s := by
    have h0 := body1_eq (wordLE 32 input) s 0 (by decide)
    have h1 := body1_eq (wordLE 32 input) s 1 (by decide)
    have h2 := body1_eq (wordLE 32 input) s 2 (by decide)
    have h3 := body1_eq (wordLE 32 input) s 3 (by decide)
    simp only [Nat.mul_zero, Nat.mul_one, Nat.reduceMul, Nat.reduceAdd] at h0 h1 h2 h3
    simp only [List.foldl_cons, List.foldl_nil]
    rw [show body1 (wordLE 32 input) s 0 = _ from h0, h1, h2, h3]
  have e2 : [0, 1, 2, 3].foldl (body2 (wordLE 32 input)) (Spec.Md4.steps (wordLE 32 input) 16 s) =
      Spec.Md4.steps (wordLE 32 input) 32 s := by
    have h0 := body2_eq (wordLE 32 input) s 0 (by decide)
    have h1 := body2_eq (wordLE 32 input) s 1 (by decide)
    have h2 := body2_eq (wordLE 32 input) s 2 (by decide)
    have h3 := body2_eq (wordLE 32 input) s 3 (by decide)
    simp only [Nat.mul_zero, Nat.mul_one, Nat.reduceMul, Nat.reduceAdd] at h0 h1 h2 h3
    simp only [List.foldl_cons, List.foldl_nil, h0, h1, h2, h3]
  have e3 : [0, 2, 1, 3].foldl (body3 (wordLE 32 input)) (Spec.Md4.steps (wordLE 32 input) 32 s) =
      Spec.Md4.steps (wordLE 32 input) 48 s := by
    have h0 := body3_eq (wordLE 32 input) s 0 (by decide)
    have h1 := body3_eq (wordLE 32 input) s 1 (by decide)
    have h2 := body3_eq (wordLE 32 input) s 2 (by decide)
    have h3 := body3_eq (wordLE 32 input) s 3 (by decide)
    simp only [Nat.mul_zero, Nat.mul_one, Nat.reduceMul, Nat.reduceAdd, List.getD_cons_zero,
      List.getD_cons_succ] at h0 h1 h2 h3
    simp only [List.foldl_cons, List.foldl_nil, h0, h1, h2, h3]
  unfold compress
  extract_lets data t1 t2 t3
  have e : t3 = Spec.Md4.steps (wordLE 32 input) 48 s := by rw [← e3, ← e2, ← e1]
  rw [e, Spec.Md4.compress]
  rfl

theorem lawful : md4.Lawful (fun _ => True) where
  bs_pos := by decide
  nil := fun s => by simp [md4, updateBlocks]
  app := fun s x y => by simp [md4, updateBlocks, BitVec.ofNat_add, BitVec.add_assoc]
  inv_init := trivial
  inv_update := fun _ _ _ _ => trivial
  reset_eq := fun _ _ => rfl
  fin_congr := fun s b b' h h' hc => by
    simp only [md4, finalize, BlockBuffer.len64PaddingLE]
    rw [pos_congr h h' hc, digestPad_congr (bs := 64) h h' hc (by simp)]

theorem serLawful : md4.SerLawful (fun _ => True) where
  bs_le := by decide
  len := fun s _ => by simp [md4, serialize, length_bytesOfWordsLE, V4.toList]
  round := fun s _ => by
    simp only [md4, serialize, deserialize]
    rw [if_pos (by simp [length_bytesOfWordsLE, V4.toList])]
    have h : ∀ i (hi : i < 4), wordLE 32 (bytesOfWordsLE s.state.toList ++ leBytes 8 s.blockLen.toNat) i =
      s.state.toList.getD i 0 := fun i hi => wordLE_append (by decide) _ _ _ (by simpa [V4.toList] using hi)
    rw [List.drop_left' (by simp [length_bytesOfWordsLE, V4.toList]), counter_round (by decide)]
    simp only [V4.ofFn, h 0 (by decide), h 1 (by decide), h 2 (by decide), h 3 (by decide)]
    rfl

theorem deserLawful : md4.DeserLawful where
  canon := fun raw s h => by
    simp only [md4, deserialize, serialize] at h ⊢
    split at h
    · rename_i hl
      injection h with h
      subst h
      have : (V4.ofFn (wordLE 32 raw)).toList = (List.range 4).map (wordLE 32 raw) := rfl
      rw [this, bytesOfWordsLE_range (by decide) _ _ (by omega), counter_canon (by decide) (by simp [hl])]
      simp
    · cases h

theorem digest_eq (m : Bytes) : md4.digest m = Spec.Md4.md4 m := by
  obtain ⟨b, h1, h2, h3, h4⟩ := Core.digest_eager lawful rfl m
  rw [h4]
  simp only [md4] at h1 h2 h3 ⊢
  simp only [finalize, updateBlocks, BlockBuffer.len64PaddingLE, List.foldl_cons,
    List.foldl_nil, length_blocks, h3, init]
  rw [show compress = Spec.Md4.compress from funext fun s => funext (compress_eq s), BitVec.add_comm ((64 : W64) * _), show (64 : W64) = BitVec.ofNat 64 64 from rfl, bitLen_eq, leBytes_counter (by decide)]
  rw [Spec.Md4.md4, Spec.Md4.pad, ← md_finalize (by decide) h1 (by simp) _ _ m h2]
  rfl

end Md4
end Hashes
