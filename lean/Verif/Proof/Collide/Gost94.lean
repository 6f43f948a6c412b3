import Verif.Proof.PadInj
import Verif.Proof.Gost94
import Verif.Spec.Inputs
/- C63 for GOST R 34.11-94. -/
namespace Hashes
open Spec

theorem length_zpad_dvd {bs : Nat} (hb : 0 < bs) (m : Bytes) : bs ∣ (zpad bs m).length := by
  rw [zpad, List.length_append, List.length_replicate, zeroFill]
  have h1 := Nat.mod_lt m.length hb
  have h2 := Nat.div_add_mod m.length bs
  by_cases h : m.length % bs = 0
  · rw [h, Nat.sub_zero, Nat.mod_self]; exact Nat.dvd_of_mod_eq_zero h
  · rw [Nat.mod_eq_of_lt (by omega)]
    exact ⟨m.length / bs + 1, by rw [Nat.mul_add]; omega⟩

/-- The blocks of the zero-padded message are the whole blocks and the padded rest. -/
theorem chunks_zpad {bs : Nat} (hb : 0 < bs) (m : Bytes) : chunks bs (zpad bs m) = blocks bs (m.length / bs) m ++
    (if m.length % bs = 0 then [] else [m.drop (bs * (m.length / bs)) ++ List.replicate (bs - m.length % bs) 0]) := by
  have h1 := Nat.mod_lt m.length hb
  have h2 := Nat.div_add_mod m.length bs
  have hsplit : zpad bs m = m.take (bs * (m.length / bs)) ++ (m.drop (bs * (m.length / bs)) ++ List.replicate (zeroFill bs m.length) 0) := by
    rw [← List.append_assoc, List.take_append_drop]; rfl
  have hd : (m.take (bs * (m.length / bs))).length = bs * (m.length / bs) := by rw [List.length_take]; omega
  have e1 : chunks bs (m.take (bs * (m.length / bs))) = blocks bs (m.length / bs) m := by
    have : m.length / bs * bs ≤ (m.take (bs * (m.length / bs))).length := by rw [hd, Nat.mul_comm]; exact Nat.le_refl _
    rw [chunks, hd, Nat.mul_div_cancel_left _ hb, ← blocks_append_left bs _ _ (m.drop (bs * (m.length / bs))) this, List.take_append_drop]
  rw [hsplit, chunks_append hb _ ⟨_, hd⟩, e1]
  congr 1
  by_cases h : m.length % bs = 0
  · rw [if_pos h, zeroFill, h, Nat.sub_zero, Nat.mod_self, List.drop_of_length_le (by omega)]
    exact chunks_nil bs
  · rw [if_neg h, zeroFill, Nat.mod_eq_of_lt (show bs - m.length % bs < bs by omega)]
    apply chunks_single hb
    rw [List.length_append, List.length_drop, List.length_replicate]; omega

theorem zpad_inj {bs : Nat} {m m' : Bytes} (hl : m.length = m'.length) (h : zpad bs m = zpad bs m') : m = m' := by
  rw [zpad, zpad] at h
  exact (List.append_inj h hl).1

theorem chunks_zpad_inj {bs : Nat} (hb : 0 < bs) {m m' : Bytes} (hl : m.length = m'.length) (h : chunks bs (zpad bs m) = chunks bs (zpad bs m')) :
    m = m' := by
  have := congrArg List.flatten h
  rw [chunks_flatten (length_zpad_dvd hb m), chunks_flatten (length_zpad_dvd hb m')] at this
  exact zpad_inj hl this

namespace Gost94
open Spec.Gost94 (vec)
variable {sb : List (List Byte)} {h0 : Bytes}

theorem step_foldl (l : List Bytes) (H S : Spec.Gost94.V) : l.foldl (Spec.Gost94.step sb) (H, S) =
    (l.foldl (fun H b => Spec.Gost94.chi sb H (vec b)) H, S + BitVec.ofNat 256 (l.map ofLE).sum) := by
  induction l generalizing H S with
  | nil => simp
  | cons b l ih =>
    rw [List.foldl_cons, Spec.Gost94.step, ih, List.map_cons, List.sum_cons, BitVec.ofNat_add, ← BitVec.add_assoc]
    rfl

theorem vec_foldl (l : List Bytes) (hl : ∀ b ∈ l, b.length = 32) (h : Bytes) (hh : h.length = 32) :
    (l.foldl (f sb) h).length = 32 ∧ vec (l.foldl (f sb) h) = l.foldl (fun H b => Spec.Gost94.chi sb H (vec b)) (vec h) := by
  induction l generalizing h with
  | nil => exact ⟨hh, rfl⟩
  | cons b l ih =>
    rw [List.foldl_cons, List.foldl_cons, ← f_eq sb h b hh (hl b List.mem_cons_self)]
    exact ih (fun b hb => hl b (List.mem_cons_of_mem _ hb)) _ (length_f _ _ _)

theorem foldl_split (m : Bytes) (H S : Spec.Gost94.V) : (Spec.Gost94.split m).foldl (Spec.Gost94.step sb) (H, S) =
    (chunks 32 (zpad 32 m)).foldl (Spec.Gost94.step sb) (H, S) := by
  rw [chunks_zpad (by decide), Spec.Gost94.split, List.foldl_append, List.foldl_append]
  split
  · rfl
  · simp only [List.foldl_cons, List.foldl_nil, Spec.Gost94.step]
    rw [vec_zeros]

theorem vec_le (x : Nat) : vec (leBytes 32 x) = BitVec.ofNat 256 x := by
  rw [vec, ofLE_leBytes]
  exact BitVec.eq_of_toNat_eq (by simp)

theorem digest_chain (hh : h0.length = 32) (m : Bytes) : (gost94 sb h0).digest m = (gostInput m).foldl (f sb) h0 := by
  have hall : ∀ b ∈ gostInput m, b.length = 32 := by
    intro b hb
    rcases List.mem_append.1 hb with h | h
    · exact length_of_mem_chunks h
    · rcases List.mem_cons.1 h with rfl | h
      · simp
      · rw [List.mem_singleton.1 h]; simp
  obtain ⟨e1, e2⟩ := vec_foldl (sb := sb) _ hall h0 hh
  rw [out_eq _ e1, e2, digest_eq hh, Spec.Gost94.hash, foldl_split, step_foldl]
  simp only [gostInput, List.foldl_append, List.foldl_cons, List.foldl_nil, vec_le]
  rw [show ∀ x : Spec.Gost94.V, 0 + x = x from fun x => BitVec.zero_add x]

theorem input_suffix {m m' : Bytes} (hm : 8 * m.length < 2 ^ 256) (hm' : 8 * m'.length < 2 ^ 256) (hne : m ≠ m') :
    ¬ gostInput m <:+ gostInput m' := by
  rintro ⟨z, h⟩
  simp only [gostInput, ← List.append_assoc] at h
  obtain ⟨h1, h2⟩ := List.append_inj' h rfl
  have hl := leBytes_inj (List.cons.inj h2).1
  rw [Nat.mod_eq_of_lt hm, Nat.mod_eq_of_lt hm'] at hl
  have hl : m.length = m'.length := by omega
  have hz : z = [] := by
    have := congrArg List.length h1
    rw [List.length_append, length_chunks, length_chunks, zpad, zpad, List.length_append, List.length_append, hl] at this
    exact List.eq_nil_of_length_eq_zero (by simpa using this)
  subst hz
  exact hne (chunks_zpad_inj (by decide) hl h1)

end Gost94
end Hashes
