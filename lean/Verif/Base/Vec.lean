import Verif.Base.Bytes
/- Fixed-size arrays with named fields (Rust `[T; 2]`, `[T; 4]`, `[T; 5]`, `[T; 8]`). -/
namespace Hashes

/-- `[T; 2]` -/
@[ext] structure V2 (α : Type) where
  x0 : α
  x1 : α
deriving DecidableEq, Repr

/-- `[T; 4]` -/
@[ext] structure V4 (α : Type) where
  x0 : α
  x1 : α
  x2 : α
  x3 : α
deriving DecidableEq, Repr

/-- `[T; 5]` -/
@[ext] structure V5 (α : Type) where
  x0 : α
  x1 : α
  x2 : α
  x3 : α
  x4 : α
deriving DecidableEq, Repr

/-- `[T; 8]` -/
@[ext] structure V8 (α : Type) where
  x0 : α
  x1 : α
  x2 : α
  x3 : α
  x4 : α
  x5 : α
  x6 : α
  x7 : α
deriving DecidableEq, Repr

namespace V4
/-- Elements in index order. -/
def toList {α : Type} (v : V4 α) : List α := [v.x0, v.x1, v.x2, v.x3]
/-- Lane-wise unary operation. -/
def map {α β : Type} (f : α → β) (v : V4 α) : V4 β := ⟨f v.x0, f v.x1, f v.x2, f v.x3⟩
/-- Lane-wise binary operation. -/
def zip {α β γ : Type} (f : α → β → γ) (a : V4 α) (b : V4 β) : V4 γ :=
  ⟨f a.x0 b.x0, f a.x1 b.x1, f a.x2 b.x2, f a.x3 b.x3⟩
/-- Build from a function of the index. -/
def ofFn {α : Type} (f : Nat → α) : V4 α := ⟨f 0, f 1, f 2, f 3⟩
/-- `v[i]` (indices are literals below 4 in the modelled code). -/
def get {α : Type} (v : V4 α) (i : Nat) : α := match i with | 0 => v.x0 | 1 => v.x1 | 2 => v.x2 | _ => v.x3
/-- `v[i] = y`. -/
def set {α : Type} (v : V4 α) (i : Nat) (y : α) : V4 α :=
  match i with
  | 0 => { v with x0 := y } | 1 => { v with x1 := y } | 2 => { v with x2 := y } | _ => { v with x3 := y }
end V4

namespace V5
/-- Elements in index order. -/
def toList {α : Type} (v : V5 α) : List α := [v.x0, v.x1, v.x2, v.x3, v.x4]
/-- Lane-wise binary operation. -/
def zip {α β γ : Type} (f : α → β → γ) (a : V5 α) (b : V5 β) : V5 γ :=
  ⟨f a.x0 b.x0, f a.x1 b.x1, f a.x2 b.x2, f a.x3 b.x3, f a.x4 b.x4⟩
/-- Build from a function of the index. -/
def ofFn {α : Type} (f : Nat → α) : V5 α := ⟨f 0, f 1, f 2, f 3, f 4⟩
/-- `v[i]` (indices are literals below 5 in the modelled code). -/
def get {α : Type} (v : V5 α) (i : Nat) : α :=
  match i with | 0 => v.x0 | 1 => v.x1 | 2 => v.x2 | 3 => v.x3 | _ => v.x4
/-- `v[i] = y`. -/
def set {α : Type} (v : V5 α) (i : Nat) (y : α) : V5 α :=
  match i with
  | 0 => { v with x0 := y } | 1 => { v with x1 := y } | 2 => { v with x2 := y } | 3 => { v with x3 := y }
  | _ => { v with x4 := y }
end V5

namespace V8
/-- Elements in index order. -/
def toList {α : Type} (v : V8 α) : List α := [v.x0, v.x1, v.x2, v.x3, v.x4, v.x5, v.x6, v.x7]
/-- Lane-wise binary operation. -/
def zip {α β γ : Type} (f : α → β → γ) (a : V8 α) (b : V8 β) : V8 γ :=
  ⟨f a.x0 b.x0, f a.x1 b.x1, f a.x2 b.x2, f a.x3 b.x3, f a.x4 b.x4, f a.x5 b.x5, f a.x6 b.x6, f a.x7 b.x7⟩
/-- Build from a function of the index. -/
def ofFn {α : Type} (f : Nat → α) : V8 α := ⟨f 0, f 1, f 2, f 3, f 4, f 5, f 6, f 7⟩
/-- `v[i]` (indices are literals below 8 in the modelled code). -/
def get {α : Type} (v : V8 α) (i : Nat) : α :=
  match i with
  | 0 => v.x0 | 1 => v.x1 | 2 => v.x2 | 3 => v.x3 | 4 => v.x4 | 5 => v.x5 | 6 => v.x6 | _ => v.x7
/-- `v[i] = y`. -/
def set {α : Type} (v : V8 α) (i : Nat) (y : α) : V8 α :=
  match i with
  | 0 => { v with x0 := y } | 1 => { v with x1 := y } | 2 => { v with x2 := y } | 3 => { v with x3 := y }
  | 4 => { v with x4 := y } | 5 => { v with x5 := y } | 6 => { v with x6 := y } | _ => { v with x7 := y }
theorem set0 {α : Type} (a b c d e f g h y : α) : (⟨a, b, c, d, e, f, g, h⟩ : V8 α).set 0 y = ⟨y, b, c, d, e, f, g, h⟩ := rfl
theorem set1 {α : Type} (a b c d e f g h y : α) : (⟨a, b, c, d, e, f, g, h⟩ : V8 α).set 1 y = ⟨a, y, c, d, e, f, g, h⟩ := rfl
theorem set2 {α : Type} (a b c d e f g h y : α) : (⟨a, b, c, d, e, f, g, h⟩ : V8 α).set 2 y = ⟨a, b, y, d, e, f, g, h⟩ := rfl
theorem set3 {α : Type} (a b c d e f g h y : α) : (⟨a, b, c, d, e, f, g, h⟩ : V8 α).set 3 y = ⟨a, b, c, y, e, f, g, h⟩ := rfl
theorem set4 {α : Type} (a b c d e f g h y : α) : (⟨a, b, c, d, e, f, g, h⟩ : V8 α).set 4 y = ⟨a, b, c, d, y, f, g, h⟩ := rfl
theorem set5 {α : Type} (a b c d e f g h y : α) : (⟨a, b, c, d, e, f, g, h⟩ : V8 α).set 5 y = ⟨a, b, c, d, e, y, g, h⟩ := rfl
theorem set6 {α : Type} (a b c d e f g h y : α) : (⟨a, b, c, d, e, f, g, h⟩ : V8 α).set 6 y = ⟨a, b, c, d, e, f, y, h⟩ := rfl
theorem set7 {α : Type} (a b c d e f g h y : α) : (⟨a, b, c, d, e, f, g, h⟩ : V8 α).set 7 y = ⟨a, b, c, d, e, f, g, y⟩ := rfl
theorem get0 {α : Type} (a b c d e f g h : α) : (⟨a, b, c, d, e, f, g, h⟩ : V8 α).get 0 = a := rfl
theorem get1 {α : Type} (a b c d e f g h : α) : (⟨a, b, c, d, e, f, g, h⟩ : V8 α).get 1 = b := rfl
theorem get2 {α : Type} (a b c d e f g h : α) : (⟨a, b, c, d, e, f, g, h⟩ : V8 α).get 2 = c := rfl
theorem get3 {α : Type} (a b c d e f g h : α) : (⟨a, b, c, d, e, f, g, h⟩ : V8 α).get 3 = d := rfl
theorem get4 {α : Type} (a b c d e f g h : α) : (⟨a, b, c, d, e, f, g, h⟩ : V8 α).get 4 = e := rfl
theorem get5 {α : Type} (a b c d e f g h : α) : (⟨a, b, c, d, e, f, g, h⟩ : V8 α).get 5 = f := rfl
theorem get6 {α : Type} (a b c d e f g h : α) : (⟨a, b, c, d, e, f, g, h⟩ : V8 α).get 6 = g := rfl
theorem get7 {α : Type} (a b c d e f g h : α) : (⟨a, b, c, d, e, f, g, h⟩ : V8 α).get 7 = h := rfl
end V8

end Hashes

namespace Hashes

/-- `[u64; N]` (any word width) for arrays of more than eight words: a list of known length. -/
abbrev Arr (w n : Nat) := { l : List (BitVec w) // l.length = n }

namespace Arr
variable {w n : Nat}
/-- Elements in index order. -/
def toList (a : Arr w n) : List (BitVec w) := a.1
/-- `a[i]` (indices are in range in the modelled code). -/
def get (a : Arr w n) (i : Nat) : BitVec w := a.1.getD i 0
/-- Build from a function of the index. -/
def ofFn (n : Nat) (f : Nat → BitVec w) : Arr w n := ⟨(List.range n).map f, by simp⟩
/-- `a[i] = y`. -/
def set (a : Arr w n) (i : Nat) (y : BitVec w) : Arr w n := ⟨a.1.set i y, by rw [List.length_set]; exact a.2⟩

theorem get_ofFn (f : Nat → BitVec w) {i : Nat} (h : i < n) : (ofFn n f).get i = f i := by
  simp [get, ofFn, List.getD, h]

theorem get_set (a : Arr w n) (i j : Nat) (y : BitVec w) (hi : i < n) :
    (a.set i y).get j = if i = j then y else a.get j := by
  have := a.2
  simp only [get, set, List.getD_eq_getElem?_getD, List.getElem?_set]
  split
  · rename_i h; subst h; rw [if_pos (by omega)]; rfl
  · rfl

theorem ofFn_get (a : Arr w n) : ofFn n a.get = a := by
  apply Subtype.ext
  apply List.ext_getElem
  · simp [ofFn, a.2]
  · intro i h1 h2
    simp [ofFn, get, h2]

theorem ext_get {a b : Arr w n} (h : ∀ i < n, a.get i = b.get i) : a = b := by
  rw [← ofFn_get a, ← ofFn_get b]
  apply Subtype.ext
  simp only [ofFn]
  exact List.map_congr_left fun i hi => h i (List.mem_range.1 hi)

theorem ofFn_congr {f g : Nat → BitVec w} (h : ∀ i < n, f i = g i) : ofFn n f = ofFn n g := by
  apply Subtype.ext
  simp only [ofFn]
  exact List.map_congr_left fun i hi => h i (List.mem_range.1 hi)

@[simp] theorem length_toList (a : Arr w n) : a.toList.length = n := a.2
end Arr
end Hashes
