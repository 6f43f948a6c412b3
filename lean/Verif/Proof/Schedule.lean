import Verif.Spec.Fips180
/- Lemmas about `Spec.expand`. -/
namespace Hashes
open Spec
variable {α : Type}

theorem length_extend (next : List α → α) (n : Nat) (r : List α) : (extend next n r).length = r.length + n := by
  induction n with
  | zero => rfl
  | succ n ih => simp [extend, ih]; omega

theorem length_expand (next : List α → α) (n : Nat) (f : List α) : (expand next n f).length = f.length + n := by
  simp [expand, length_extend]

theorem expand_succ (next : List α → α) (n : Nat) (f : List α) :
    expand next (n + 1) f = expand next n f ++ [next (expand next n f).reverse] := by
  simp [expand, extend]

theorem expand_prefix (next : List α → α) (n k : Nat) (f : List α) :
    (expand next (n + k) f).take (f.length + n) = expand next n f := by
  induction k with
  | zero => rw [Nat.add_zero, ← length_expand next n f, List.take_length]
  | succ k ih =>
    rw [← Nat.add_assoc, expand_succ, List.take_append_of_le_length (by simp [length_expand]), ih]

theorem expand_getD_lt (next : List α → α) (n : Nat) (f : List α) (d : α) {t : Nat} (h : t < f.length) :
    (expand next n f).getD t d = f.getD t d := by
  have := expand_prefix next 0 n f
  simp only [Nat.zero_add, Nat.add_zero] at this
  have h0 : expand next 0 f = f := by simp [expand, extend]
  rw [h0] at this
  conv => rhs; rw [← this]
  simp only [List.getD_eq_getElem?_getD]
  rw [List.getElem?_take_of_lt h]

theorem expand_getD_ge (next : List α → α) (n : Nat) (f : List α) (d : α) {t : Nat} (h : f.length ≤ t)
    (h2 : t < f.length + n) :
    (expand next n f).getD t d = next ((expand next n f).take t).reverse := by
  obtain ⟨j, rfl⟩ : ∃ j, t = f.length + j := ⟨t - f.length, by omega⟩
  obtain ⟨k, rfl⟩ : ∃ k, n = j + 1 + k := ⟨n - (j + 1), by omega⟩
  have e1 := expand_prefix next (j + 1) k f
  have e2 := expand_prefix next j (1 + k) f
  rw [← Nat.add_assoc] at e2
  rw [e2]
  have : (expand next (j + 1 + k) f).getD (f.length + j) d = (expand next (j + 1) f).getD (f.length + j) d := by
    rw [← e1]; simp only [List.getD_eq_getElem?_getD]; rw [List.getElem?_take_of_lt (by omega)]
  rw [this, expand_succ]
  simp only [List.getD_eq_getElem?_getD]
  rw [List.getElem?_append_right (by rw [length_expand]; exact Nat.le_refl _), length_expand]
  simp

theorem getD_reverse_take (l : List α) (d : α) {t j : Nat} (hj : j < t) (ht : t ≤ l.length) :
    (l.take t).reverse.getD j d = l.getD (t - 1 - j) d := by
  simp only [List.getD_eq_getElem?_getD]
  rw [List.getElem?_reverse (by simp; omega)]
  simp only [List.length_take, Nat.min_eq_left ht]
  rw [List.getElem?_take_of_lt (by omega)]

end Hashes
