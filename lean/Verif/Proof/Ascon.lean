import Verif.Model.Ascon
import Verif.Spec.Ascon
import Verif.Proof.Vec256
import Verif.Proof.Md
import Verif.Proof.Xof
/- Helper lemmas: the modelled Ascon hash and XOF equal SP 800-232, for every permutation. -/
namespace Hashes
namespace Ascon

variable (P : State → State)

theorem pad_bytes : ∀ n < 8, ∀ j < 8, byteAt (pad n) j = if j = n then 1 else 0 := by decide +kernel

theorem last_word (t : Bytes) (ht : t.length < 8) :
    BitVec.ofNat 64 (ofLE (t ++ List.replicate (8 - t.length) 0)) ^^^ pad t.length =
      BitVec.ofNat 64 (ofLE (t ++ [0x01] ++ List.replicate (7 - t.length) 0)) := by
  apply byteAt_ext (k := 8) rfl
  intro j hj
  rw [byteAt_xor, byteAt_ofLE _ _ (by omega), byteAt_ofLE _ _ (by omega), pad_bytes _ ht j hj]
  by_cases h1 : j < t.length
  · rw [if_neg (by omega), getD_append_lt h1, List.append_assoc, getD_append_lt h1]; simp
  · rw [getD_append_ge (by omega), List.append_assoc, getD_append_ge (by omega)]
    have hz : ∀ k i, (List.replicate k (0 : Byte)).getD i 0 = 0 := by
      intro k i; rw [List.getD_eq_getElem?_getD, List.getElem?_replicate]; split <;> rfl
    rw [hz]
    by_cases h2 : j = t.length
    · subst h2; simp
    · rw [if_neg h2, show j - t.length = (j - t.length - 1) + 1 by omega, List.singleton_append, List.getD_cons_succ, hz]; rfl

theorem absorbLast_eq (s : State) (t : Bytes) (ht : t.length < 8) :
    absorbLastBlock P s t = absorbBlock P s (t ++ [0x01] ++ List.replicate (7 - t.length) 0) := by
  have h := last_word t ht
  simp only [absorbLastBlock, absorbBlock, ← h]
  by_cases h0 : t.length > 0
  · rw [if_pos h0, BitVec.xor_assoc]
  · have : t = [] := List.eq_nil_of_length_eq_zero (by omega)
    subst this
    have e : BitVec.ofNat 64 (ofLE ([] ++ List.replicate (8 - ([] : Bytes).length) 0)) = 0 := by decide
    rw [if_neg h0, e, show (0 : W64) ^^^ pad ([] : Bytes).length = pad ([] : Bytes).length from BitVec.zero_xor]

theorem hash_lawful : (hash256 P).Lawful (fun _ => True) where
  bs_pos := (by decide : 0 < 8)
  nil := fun s => rfl
  app := fun s x y => by simp [hash256, updateBlocks]
  inv_init := trivial
  inv_update := fun _ _ _ _ => trivial
  reset_eq := fun _ _ => rfl
  fin_congr := fun s b b' h h' hc => by
    simp only [BlockBuffer.content] at hc
    simp only [hash256, hc]

theorem xof_lawful : (xof128 P).Lawful (fun _ => True) where
  bs_pos := (by decide : 0 < 8)
  nil := fun s => rfl
  app := fun s x y => by simp [xof128, updateBlocks]
  inv_init := trivial
  inv_update := fun _ _ _ _ => trivial
  reset_eq := fun _ _ => rfl
  fin_congr := fun s b b' h h' hc => by
    simp only [BlockBuffer.content] at hc
    simp only [xof128, hc]

theorem reader_lawful : (reader P).Lawful (fun _ => True) where
  bs_pos := (by decide : 0 < 8)
  len := fun s _ => by simp [reader, squeezeBlock]
  next := fun _ _ => trivial

theorem absorb_eq (iv : State) (m : Bytes) :
    absorbLastBlock P (updateBlocks P iv (blocks 8 (m.length / 8) m)) (m.drop (m.length / 8 * 8)) = Spec.Ascon.absorb P iv m := by
  have hlt := Nat.mod_lt m.length (show 8 > 0 by decide)
  have hl : (m.drop (m.length / 8 * 8)).length = m.length % 8 := by simp; omega
  rw [absorbLast_eq P _ _ (by omega), Spec.Ascon.absorb, chunks_mdPad (by decide), List.foldl_append]
  have hz : Spec.zeroFill 8 ((m.drop (m.length / 8 * 8)).length + 1 + ([] : Bytes).length) = 7 - m.length % 8 := by
    rw [hl, Spec.zeroFill, List.length_nil]; omega
  rw [Spec.mdPad, hz, List.append_nil, hl]
  have h8 : (m.drop (m.length / 8 * 8) ++ [0x01] ++ List.replicate (7 - m.length % 8) (0 : Byte)).length = 8 := by
    simp only [List.length_append, hl, List.length_singleton, List.length_replicate]; omega
  have hc : chunks 8 (m.drop (m.length / 8 * 8) ++ [0x01] ++ List.replicate (7 - m.length % 8) (0 : Byte)) =
      [m.drop (m.length / 8 * 8) ++ [0x01] ++ List.replicate (7 - m.length % 8) 0] := by
    rw [chunks, h8]
    show [_] = _
    rw [List.take_of_length_le (by omega)]
  rw [hc]
  rfl

theorem squeeze_succ (k : Nat) (s : State) :
    Spec.Ascon.squeeze P (k + 1) s = leBytes 8 s.x0.toNat ++ Spec.Ascon.squeeze P k (P s) := by
  have hrep : ∀ i, Nat.repeat P (i + 1) s = Nat.repeat P i (P s) := by
    intro i
    induction i with
    | zero => rfl
    | succ i ih => rw [Nat.repeat, ih]; rfl
  rw [Spec.Ascon.squeeze, List.range_succ_eq_map, List.flatMap_cons, List.flatMap_map, Spec.Ascon.squeeze]
  simp only [Nat.succ_eq_add_one, hrep]
  rfl

theorem length_squeeze (k : Nat) (s : State) : (Spec.Ascon.squeeze P k s).length = 8 * k := by
  induction k generalizing s with
  | zero => rfl
  | succ k ih => rw [squeeze_succ, List.length_append, ih, length_leBytes]; omega

theorem stream_eq (k : Nat) (s : State) : (reader P).stream k s = Spec.Ascon.squeeze P k s := by
  induction k generalizing s with
  | zero => rfl
  | succ k ih => rw [squeeze_succ, ← ih]; rfl

theorem squeeze_eq (k : Nat) (s : State) : squeeze P k s = Spec.Ascon.squeeze P (k + 1) s := by
  induction k generalizing s with
  | zero => rw [squeeze_succ]; simp [squeeze, Spec.Ascon.squeeze]
  | succ k ih => rw [squeeze_succ, ← ih]; rfl

theorem hash_digest_eq (m : Bytes) : (hash256 P).digest m = Spec.Ascon.sponge P ivHash m 32 := by
  obtain ⟨b, h1, h2, h3, h4⟩ := Core.digest_eager (hash_lawful P) rfl m
  rw [h4]
  simp only [hash256] at h1 h2 h3 ⊢
  rw [show b.data.take b.pos = _ from h2, absorb_eq, squeeze_eq, Spec.Ascon.sponge, List.take_of_length_le]
  rw [length_squeeze]; decide

theorem xof_digest_eq (m : Bytes) : (xof128 P).digest m = Spec.Ascon.absorb P ivXof m := by
  obtain ⟨b, h1, h2, h3, h4⟩ := Core.digest_eager (xof_lawful P) rfl m
  rw [h4]
  simp only [xof128] at h1 h2 h3 ⊢
  rw [show b.data.take b.pos = _ from h2, absorb_eq]

end Ascon
end Hashes
