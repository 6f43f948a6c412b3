import Verif.Model.Fsb
import Verif.Spec.Fsb
/- Helper lemmas: checked operations of the FSB model, bits of bytes, shift-and-truncate as a rotation of bits. -/
namespace Hashes.Fsb
open Spec.Fsb (bit num pack)

theorem csub_eq {a b : Nat} (h : b ≤ a) : csub a b = some (a - b) := if_pos h
theorem cadd32_eq {a b : Nat} (h : a + b < 2 ^ 32) : cadd32 a b = some (a + b) := if_pos h
theorem shl_eq {a : Byte} {k : Nat} (h : k < 8) : shl a k = some (a <<< k) := if_pos h
theorem shr_eq {a : Byte} {k : Nat} (h : k < 8) : shr a k = some (a >>> k) := if_pos h
theorem idx_eq {l : Bytes} {i : Nat} (h : i < l.length) : idx l i = some (l.getD i 0) := by
  rw [idx, List.getD_eq_getElem?_getD, List.getElem?_eq_getElem h]; rfl
theorem slice_eq {l : Bytes} {a b : Nat} (h : a ≤ b) (h' : b ≤ l.length) : slice l a b = some ((l.drop a).take (b - a)) := if_pos ⟨h, h'⟩
theorem store_eq {l : Bytes} {i : Nat} {v : Byte} (h : i < l.length) : store l i v = some (l.set i v) := if_pos h
theorem xorAt_eq {l : Bytes} {i : Nat} {v : Byte} (h : i < l.length) : xorAt l i v = some (l.set i (l.getD i 0 ^^^ v)) := if_pos h

theorem getD_set (l : Bytes) (i k : Nat) (v : Byte) (h : i < l.length) : (l.set i v).getD k 0 = if i = k then v else l.getD k 0 := by
  simp only [List.getD_eq_getElem?_getD, List.getElem?_set]
  by_cases e : i = k
  · subst e; simp [h]
  · simp [e]

/-- A loop whose body rewrites position `i` only. -/
theorem loop_eq (lo hi : Nat) (body : Nat → Bytes → Option Bytes) (t : Bytes) (f : Nat → Byte → Byte) (hh : hi ≤ t.length)
    (hb : ∀ i t', lo ≤ i → i < hi → t'.length = t.length → body i t' = some (t'.set i (f i (t'.getD i 0)))) :
    ∃ t', loop lo hi body t = some t' ∧ t'.length = t.length ∧
      ∀ k, t'.getD k 0 = if lo ≤ k ∧ k < hi then f k (t.getD k 0) else t.getD k 0 := by
  have main : ∀ n lo t, lo + n ≤ t.length → (∀ i t', lo ≤ i → i < lo + n → t'.length = t.length → body i t' = some (t'.set i (f i (t'.getD i 0)))) →
      ∃ t', (List.range' lo n).foldlM (fun t i => body i t) t = some t' ∧ t'.length = t.length ∧
        ∀ k, t'.getD k 0 = if lo ≤ k ∧ k < lo + n then f k (t.getD k 0) else t.getD k 0 := by
    intro n
    induction n with
    | zero => intro lo t _ _; exact ⟨t, rfl, rfl, fun k => by rw [if_neg (by omega)]⟩
    | succ n ih =>
      intro lo t hl hb
      obtain ⟨t', e, l, g⟩ := ih (lo + 1) (t.set lo (f lo (t.getD lo 0))) (by simp; omega)
        (fun i t' h1 h2 h3 => hb i t' (by omega) (by omega) (by simpa using h3))
      refine ⟨t', ?_, by simpa using l, ?_⟩
      · rw [List.range'_succ, List.foldlM_cons, hb lo t (Nat.le_refl _) (by omega) rfl]
        exact e
      · intro k
        rw [g k, getD_set _ _ _ _ (by omega)]
        by_cases e1 : lo = k
        · subst e1; rw [if_neg (by omega), if_pos rfl, if_pos (by omega)]
        · rw [if_neg e1]
          by_cases e2 : lo + 1 ≤ k ∧ k < lo + 1 + n
          · rw [if_pos e2, if_pos (by omega)]
          · rw [if_neg e2, if_neg (by omega)]
  by_cases h : lo ≤ hi
  · obtain ⟨t', e, l, g⟩ := main (hi - lo) lo t (by omega) (fun i t' h1 h2 h3 => hb i t' h1 (by omega) h3)
    refine ⟨t', e, l, fun k => ?_⟩
    rw [g k]
    by_cases e2 : lo ≤ k ∧ k < hi
    · rw [if_pos e2, if_pos (by omega)]
    · rw [if_neg e2, if_neg (by omega)]
  · refine ⟨t, ?_, rfl, fun k => by rw [if_neg (by omega)]⟩
    rw [loop, show hi - lo = 0 by omega]; rfl

/-! ### Bits -/

/-- Bit `t` of a byte from the most significant. -/
def mb (a : Byte) (t : Nat) : Bool := a.getLsbD (7 - t)

theorem bit_mb (l : Bytes) (k t : Nat) (ht : t < 8) : mb (l.getD k 0) t = bit l (8 * k + t) := by
  rw [bit, mb, show (8 * k + t) / 8 = k by omega, show (8 * k + t) % 8 = t by omega]

theorem mb_shl (a : Byte) (m t : Nat) (ht : t < 8) : mb (a <<< m) t = (decide (t + m < 8) && mb a (t + m)) := by
  simp only [mb, BitVec.getLsbD_shiftLeft]
  by_cases h : t + m < 8
  · simp only [h, decide_true, Bool.true_and, show (7 - t < 8) = True by simp; omega, show ¬ (7 - t < m) by omega, decide_false, Bool.not_false]
    congr 1; omega
  · simp only [h, decide_false, Bool.false_and, show (7 - t < m) by omega, decide_true, Bool.not_true, Bool.and_false, Bool.false_and]
theorem mb_shr (a : Byte) (m t : Nat) (ht : t < 8) : mb (a >>> m) t = (decide (m ≤ t) && mb a (t - m)) := by
  simp only [mb, BitVec.getLsbD_ushiftRight]
  by_cases h : m ≤ t
  · simp only [h, decide_true, Bool.true_and]; congr 1; omega
  · simp only [h, decide_false, Bool.false_and]
    exact BitVec.getLsbD_of_ge _ _ (by omega)
theorem mb_xor (a b : Byte) (t : Nat) : mb (a ^^^ b) t = (mb a t ^^ mb b t) := by simp [mb]
theorem mb_or (a b : Byte) (t : Nat) : mb (a ||| b) t = (mb a t || mb b t) := by simp [mb]
theorem mb_zero (t : Nat) : mb 0 t = false := by simp [mb]

theorem byte_ext {a b : Byte} (h : ∀ t < 8, mb a t = mb b t) : a = b := by
  apply BitVec.eq_of_getLsbD_eq
  intro i hi
  have := h (7 - i) (by omega)
  simp only [mb] at this
  rwa [show 7 - (7 - i) = i by omega] at this

theorem num8 (a : Byte) : num ((List.range 8).map (mb a)) = a.toNat := by revert a; decide +kernel

theorem mb_ofNat_num (f : Nat → Bool) (t : Nat) (ht : t < 8) : mb (BitVec.ofNat 8 (num ((List.range 8).map f))) t = f t := by
  have h : ∀ b0 b1 b2 b3 b4 b5 b6 b7 : Bool, ∀ t < 8, mb (BitVec.ofNat 8 (num [b0, b1, b2, b3, b4, b5, b6, b7])) t =
    [b0, b1, b2, b3, b4, b5, b6, b7].getD t false := by decide +kernel
  have e : (List.range 8).map f = [f 0, f 1, f 2, f 3, f 4, f 5, f 6, f 7] := rfl
  rw [e, h _ _ _ _ _ _ _ _ t ht, ← e]
  simp [List.getD_eq_getElem?_getD, ht]

/-- Byte strings of equal length with the same bits. -/
theorem bits_ext {l l' : Bytes} {k : Nat} (h : l.length = k) (h' : l'.length = k) (hb : ∀ j < 8 * k, bit l j = bit l' j) : l = l' := by
  apply List.ext_getElem (by rw [h, h'])
  intro i h1 h2
  have e : ∀ (l : Bytes) (h : i < l.length), l[i] = l.getD i 0 := fun l h => by
    rw [List.getD_eq_getElem?_getD, List.getElem?_eq_getElem h]; rfl
  rw [e, e]
  apply byte_ext
  intro t ht
  rw [bit_mb _ _ _ ht, bit_mb _ _ _ ht, hb _ (by omega)]

@[simp] theorem length_pack (k : Nat) (f : Nat → Bool) : (pack k f).length = k := by simp [pack]
theorem bit_pack (k : Nat) (f : Nat → Bool) (j : Nat) (hj : j < 8 * k) : bit (pack k f) j = f j := by
  have : (pack k f).getD (j / 8) 0 = BitVec.ofNat 8 (num ((List.range 8).map fun t => f (8 * (j / 8) + t))) := by
    have : j / 8 < k := by omega
    simp [pack, List.getD_eq_getElem?_getD, this]
  rw [bit, this]
  have := mb_ofNat_num (fun t => f (8 * (j / 8) + t)) (j % 8) (by omega)
  rw [mb] at this
  rw [this, show 8 * (j / 8) + j % 8 = j by omega]

end Hashes.Fsb
