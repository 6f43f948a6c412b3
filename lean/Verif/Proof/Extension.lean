import Verif.Props.Reduction
import Verif.Spec.Extension
/- Helper lemmas: saved states are determined by digest and length. -/
namespace Hashes
open Spec

/-- A hasher loaded from the image of the state after whole blocks `p` continues from `p`. -/
theorem Core.load_image {σ ω : Type} {c : Core σ ω} {inv : σ → Prop} (L : c.Lawful inv) (S : c.SerLawful inv)
    (hk : c.kind = .eager) (p : Bytes) (hp : p.length % c.bs = 0) :
    ∃ h, c.load (c.serialize (c.updateBlocks c.init (chunks c.bs p)) ++ List.replicate (c.bs + 1) 0) = some h ∧ c.Rep h p := by
  have r := (Rep.new L).update L p
  rw [List.nil_append] at r
  obtain ⟨h', e, r'⟩ := r.save_load L S
  refine ⟨h', ?_, r'⟩
  rw [← e, Core.save, r.2.1, hk]
  have hc := r.2.2
  have hn : nFull .eager c.bs p.length * c.bs = p.length := by
    show p.length / c.bs * c.bs = _
    exact Nat.div_mul_cancel (Nat.dvd_of_mod_eq_zero hp)
  rw [hk, hn, List.drop_length] at hc
  have h0 : (c.update c.new p).buf.pos = 0 := by rw [← r.1.length_content, hc]; rfl
  rw [BlockBuffer.serialize, hc, h0, List.replicate_succ, List.nil_append, Nat.sub_zero]
  rfl

theorem swapWords_beBytes (w : Nat) (hw : 0 < w) (l : List Bytes) (h : ∀ b ∈ l, b.length = w) :
    swapWords w l.flatten = l.flatMap List.reverse := by
  rw [swapWords]
  congr 1
  induction l with
  | nil => simp [chunks, blocks]
  | cons b l ih =>
    have hb : b.length = w := h b (by simp)
    have hn : (b :: l).flatten.length / w = l.flatten.length / w + 1 := by
      rw [List.flatten_cons, List.length_append, hb, Nat.add_comm, Nat.add_div_right _ hw]
    rw [chunks, hn, blocks, List.flatten_cons, List.take_left' hb, List.drop_left' hb]
    rw [show blocks w (l.flatten.length / w) l.flatten = chunks w l.flatten from rfl, ih fun x hx => h x (by simp [hx])]

theorem swapWords_words {w : Nat} (hw : 0 < w / 8) (l : List (BitVec w)) : swapWords (w / 8) (bytesOfWordsBE l) = bytesOfWordsLE l := by
  rw [bytesOfWordsBE, List.flatMap_def, swapWords_beBytes _ hw _ (by simp), bytesOfWordsLE, List.flatMap_map]
  simp [beBytes]

theorem swapWords_32 (l : List W32) : swapWords 4 (bytesOfWordsBE l) = bytesOfWordsLE l := swapWords_words (w := 32) (by decide) l
theorem swapWords_64 (l : List W64) : swapWords 8 (bytesOfWordsBE l) = bytesOfWordsLE l := swapWords_words (w := 64) (by decide) l

theorem mdPad_length {bs k : Nat} (hk : k < bs) {d : Byte} {s m : Bytes} (hs : s.length = k) :
    (mdPad bs d s m).length = bs * paddedBlocks bs k m.length := by
  rw [mdPad_blocks (by omega) (by omega), paddedBlocks, hs]
  congr 1
  have h1 := Nat.mod_lt m.length (show 0 < bs by omega)
  have h2 : (m.length + k) / bs = m.length / bs + (m.length % bs + k) / bs := by
    conv => lhs; rw [← Nat.div_add_mod m.length bs, Nat.add_assoc, Nat.mul_add_div (by omega)]
  rw [h2]
  split
  · rw [Nat.div_eq_of_lt (a := m.length % bs + k) (by omega)]
  · rw [show (m.length % bs + k) / bs = 1 from Nat.div_eq_of_lt_le (by omega) (by omega)]

theorem length_chunks_mdPad {bs k : Nat} (hk : k < bs) {d : Byte} {s m : Bytes} (hs : s.length = k) :
    (chunks bs (mdPad bs d s m)).length = paddedBlocks bs k m.length := by
  rw [length_chunks, mdPad_length hk hs, Nat.mul_div_cancel_left _ (by omega)]

theorem leBytes_counter0 (n : Nat) : leBytes 8 ((0 : W64) + BitVec.ofNat 64 n).toNat = leBytes 8 n := by
  apply leBytes_congr
  rw [show ∀ w (x : BitVec w), (0 : BitVec w) + x = x from fun w x => BitVec.zero_add x, BitVec.toNat_ofNat]; exact Nat.mod_mod _ _

theorem leBytes_counter16 (n : Nat) : leBytes 16 ((0 : W128) + BitVec.ofNat 128 n).toNat = leBytes 16 n := by
  apply leBytes_congr
  rw [show ∀ w (x : BitVec w), (0 : BitVec w) + x = x from fun w x => BitVec.zero_add x, BitVec.toNat_ofNat]; exact Nat.mod_mod _ _

end Hashes
