import Mathlib.Data.Set.Finite.Basic
import Mathlib.Data.Set.Card
import Mathlib.Data.Fintype.BigOperators
import Mathlib.Data.Fintype.Prod
import Verif.Base.Vec
/- Helpers for C62: injective maps on fixed-size word arrays are bijective; word operations are injective; linear maps with a
left inverse on the unit vectors are injective. -/
namespace Hashes.Perm
open Function

instance {w : Nat} : Finite (BitVec w) := Finite.of_injective BitVec.toFin (fun _ _ h => BitVec.eq_of_toFin_eq h)

variable {α : Type}

instance [Finite α] : Finite (V2 α) :=
  Finite.of_injective (β := α × α) (fun v => (v.x0, v.x1)) (fun a b h => by
    simp only [Prod.mk.injEq] at h; exact V2.ext h.1 h.2)
instance [Finite α] : Finite (V4 α) :=
  Finite.of_injective (β := α × α × α × α) (fun v => (v.x0, v.x1, v.x2, v.x3)) (fun a b h => by
    simp only [Prod.mk.injEq] at h; obtain ⟨h0, h1, h2, h3⟩ := h; exact V4.ext h0 h1 h2 h3)
instance [Finite α] : Finite (V5 α) :=
  Finite.of_injective (β := α × α × α × α × α) (fun v => (v.x0, v.x1, v.x2, v.x3, v.x4)) (fun a b h => by
    simp only [Prod.mk.injEq] at h; obtain ⟨h0, h1, h2, h3, h4⟩ := h; exact V5.ext h0 h1 h2 h3 h4)
instance [Finite α] : Finite (V8 α) :=
  Finite.of_injective (β := α × α × α × α × α × α × α × α)
    (fun v => (v.x0, v.x1, v.x2, v.x3, v.x4, v.x5, v.x6, v.x7)) (fun a b h => by
    simp only [Prod.mk.injEq] at h; obtain ⟨h0, h1, h2, h3, h4, h5, h6, h7⟩ := h; exact V8.ext h0 h1 h2 h3 h4 h5 h6 h7)

/-- Lists of a fixed length over a finite type. -/
theorem finite_lists [Finite α] (n : Nat) : {l : List α | l.length = n}.Finite := by
  have : Finite {l : List α | l.length = n} :=
    Finite.of_injective (β := Fin n → α) (fun l i => l.1[i.1]'(by have h : l.1.length = n := l.2; omega))
      (fun a b h => by
        apply Subtype.ext
        have ha : a.1.length = n := a.2
        have hb : b.1.length = n := b.2
        apply List.ext_getElem (by omega)
        intro i h1 h2
        exact congrFun h ⟨i, by omega⟩)
  exact Set.toFinite _

instance {w n : Nat} : Finite (Arr w n) := (finite_lists (α := BitVec w) n).to_subtype

theorem bij [Finite α] {f : α → α} (h : Injective f) : Bijective f := Finite.injective_iff_bijective.1 h

/-- Composition, as a pipeline. -/
theorem inj_foldl {ι : Type} {f : α → ι → α} (l : List ι) (h : ∀ i ∈ l, Injective fun s => f s i) :
    Injective fun s => l.foldl f s := by
  induction l with
  | nil => exact fun _ _ e => e
  | cons i l ih =>
    intro a b e
    exact h i (by simp) (ih (fun j hj => h j (by simp [hj])) e)

theorem rotateLeft_inj {w : Nat} (n : Nat) : Injective fun x : BitVec w => x.rotateLeft n := by
  intro x y h
  rcases Nat.eq_zero_or_pos w with rfl | hw
  · exact BitVec.eq_of_zero_length rfl
  apply BitVec.eq_of_getLsbD_eq
  intro i hi
  have := congrArg (fun z : BitVec w => z.getLsbD ((i + n % w) % w)) h
  simp only [BitVec.getLsbD_rotateLeft] at this
  have hr : n % w < w := Nat.mod_lt _ hw
  have hm : (i + n % w) % w = if i + n % w < w then i + n % w else i + n % w - w := by
    split
    · exact Nat.mod_eq_of_lt ‹_›
    · rw [Nat.mod_eq_sub_mod (by omega), Nat.mod_eq_of_lt (by omega)]
  rw [hm] at this
  by_cases hc : i + n % w < w
  · rw [if_pos hc] at this
    have h1 : ¬ (i + n % w < n % w) := by omega
    simpa [h1, hc] using this
  · rw [if_neg hc] at this
    have h1 : i + n % w - w < n % w := by omega
    have h2 : w - n % w + (i + n % w - w) = i := by omega
    simpa [h1, h2] using this

theorem rotateLeft_eq {w : Nat} {n : Nat} {x y : BitVec w} (h : x.rotateLeft n = y.rotateLeft n) : x = y := rotateLeft_inj n h

theorem add_left_eq {w : Nat} {x y z : BitVec w} (h : x + z = y + z) : x = y := by
  have := congrArg (· - z) h
  simpa using this
theorem add_right_eq {w : Nat} {x y z : BitVec w} (h : z + x = z + y) : x = y := by
  rw [BitVec.add_comm z, BitVec.add_comm z] at h; exact add_left_eq h
theorem xor_left_eq {w : Nat} {x y z : BitVec w} (h : x ^^^ z = y ^^^ z) : x = y := by
  have := congrArg (· ^^^ z) h
  simpa [BitVec.xor_assoc] using this
theorem xor_right_eq {w : Nat} {x y z : BitVec w} (h : z ^^^ x = z ^^^ y) : x = y := by
  rw [BitVec.xor_comm z, BitVec.xor_comm z] at h; exact xor_left_eq h
theorem sub_left_eq {w : Nat} {x y z : BitVec w} (h : x - z = y - z) : x = y := by
  have := congrArg (· + z) h
  simpa using this

/-- Multiplication by a constant with an inverse. -/
theorem mul_eq {w : Nat} {x y : BitVec w} (m n : BitVec w) (hmn : m * n = 1) (h : x * m = y * m) : x = y := by
  have := congrArg (· * n) h
  simpa [BitVec.mul_assoc, hmn] using this

/-! ### Maps that respect exclusive or -/

/-- `f (x ⊕ y) = f x ⊕ f y`. -/
def Additive {m n : Nat} (f : BitVec m → BitVec n) : Prop := ∀ x y, f (x ^^^ y) = f x ^^^ f y

theorem Additive.zero {m n : Nat} {f : BitVec m → BitVec n} (h : Additive f) : f 0#m = 0#n := by
  have := h 0#m 0#m
  rw [BitVec.xor_self, BitVec.xor_self] at this
  exact this

/-- The bits of `x` below `k`. -/
def low {n : Nat} (x : BitVec n) (k : Nat) : BitVec n := (x.setWidth k).setWidth n

theorem low_getLsbD {n : Nat} (x : BitVec n) (k i : Nat) : (low x k).getLsbD i = (decide (i < k) && x.getLsbD i) := by
  by_cases hi : i < n
  · simp only [low, BitVec.getLsbD_setWidth, hi, decide_true, Bool.true_and]
  · rw [BitVec.getLsbD_of_ge _ _ (by omega), BitVec.getLsbD_of_ge _ _ (by omega), Bool.and_false]

theorem low_succ {n : Nat} (x : BitVec n) (k : Nat) :
    low x (k + 1) = low x k ^^^ (if x.getLsbD k then BitVec.twoPow n k else 0#n) := by
  apply BitVec.eq_of_getLsbD_eq
  intro i hi
  rw [BitVec.getLsbD_xor, low_getLsbD, low_getLsbD]
  by_cases hk : i = k
  · subst hk
    cases hb : x.getLsbD i <;> simp [hi]
  · have : decide (i < k + 1) = decide (i < k) := by
      rw [decide_eq_decide]; omega
    rw [this]
    have h2 : (if x.getLsbD k then BitVec.twoPow n k else 0#n).getLsbD i = false := by
      split
      · simp only [BitVec.getLsbD_twoPow]
        have : ¬ (k = i) := fun e => hk e.symm
        simp [this]
      · simp
    simp [h2]

/-- A linear map is determined by the unit vectors. -/
theorem Additive.id_of_basis {n : Nat} {f : BitVec n → BitVec n} (h : Additive f)
    (hb : ∀ i < n, f (BitVec.twoPow n i) = BitVec.twoPow n i) (x : BitVec n) : f x = x := by
  have key : ∀ k ≤ n, f (low x k) = low x k := by
    intro k hk
    induction k with
    | zero =>
      have : low x 0 = 0#n := by
        apply BitVec.eq_of_getLsbD_eq; intro i _; simp [low_getLsbD]
      rw [this, h.zero]
    | succ k ih =>
      rw [low_succ, h, ih (by omega)]
      split
      · rw [hb k (by omega)]
      · rw [h.zero]
  have hx : low x n = x := by
    apply BitVec.eq_of_getLsbD_eq; intro i hi; rw [low_getLsbD, decide_eq_true hi, Bool.true_and]
  rw [← hx]
  exact key n (Nat.le_refl n)

theorem Additive.comp {l m n : Nat} {f : BitVec m → BitVec n} {g : BitVec l → BitVec m} (hf : Additive f) (hg : Additive g) :
    Additive (fun x => f (g x)) := fun x y => by
  show f (g (x ^^^ y)) = _
  rw [hg, hf]

theorem Additive.iter {n : Nat} {f : BitVec n → BitVec n} (hf : Additive f) (k : Nat) : Additive (f^[k]) := by
  induction k with
  | zero => exact fun _ _ => rfl
  | succ k ih => intro x y; rw [Function.iterate_succ_apply, Function.iterate_succ_apply, Function.iterate_succ_apply, hf, ih]

theorem Additive.inj {n : Nat} {f g : BitVec n → BitVec n} (hf : Additive f) (hg : Additive g)
    (hb : ∀ i < n, g (f (BitVec.twoPow n i)) = BitVec.twoPow n i) : Injective f := by
  intro x y h
  have hc : Additive fun x => g (f x) := hg.comp hf
  have hx := hc.id_of_basis hb x
  have hy := hc.id_of_basis hb y
  rw [← hx, ← hy]
  exact congrArg g h

theorem additive_rotateLeft {w : Nat} (n : Nat) : Additive fun x : BitVec w => x.rotateLeft n := by
  intro x y
  apply BitVec.eq_of_getLsbD_eq
  intro i hi
  simp only [BitVec.getLsbD_xor, BitVec.getLsbD_rotateLeft]
  cases decide (i < n % w)
  · simp [hi]
  · rfl

theorem additive_rotateRight {w : Nat} (n : Nat) : Additive fun x : BitVec w => x.rotateRight n := by
  intro x y
  apply BitVec.eq_of_getLsbD_eq
  intro i hi
  simp only [BitVec.getLsbD_xor, BitVec.getLsbD_rotateRight]
  cases decide (i < w - n % w)
  · simp [hi]
  · rfl

theorem Additive.xor {m n : Nat} {f g : BitVec m → BitVec n} (hf : Additive f) (hg : Additive g) :
    Additive fun x => f x ^^^ g x := fun x y => by
  show f (x ^^^ y) ^^^ g (x ^^^ y) = _
  rw [hf, hg]
  apply BitVec.eq_of_getLsbD_eq
  intro i _
  simp only [BitVec.getLsbD_xor]
  cases (f x).getLsbD i <;> cases (f y).getLsbD i <;> cases (g x).getLsbD i <;> cases (g y).getLsbD i <;> rfl

theorem additive_id {n : Nat} : Additive fun x : BitVec n => x := fun _ _ => rfl

end Hashes.Perm
