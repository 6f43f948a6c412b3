import Verif.Proof.Perm.Grid
import Verif.Proof.Perm.Sponge
import Verif.Model.Keccak
import Verif.Proof.Tiger
/- Helpers for C62: from matrices and lane lists back to the states of the code. -/
namespace Hashes.Perm
open Function Spec
open Kupyna (Shaped)

theorem mat_inj {a b : V8 W64} (h : Whirlpool.mat a = Whirlpool.mat b) : a = b := by
  have key : ∀ i < 8, a.get i = b.get i := by
    intro i hi
    apply byteAt_inj
    intro j hj
    rw [← Whirlpool.cell_mat a hi hj, ← Whirlpool.cell_mat b hi hj, h]
  exact V8.ext (key 0 (by decide)) (key 1 (by decide)) (key 2 (by decide)) (key 3 (by decide)) (key 4 (by decide))
    (key 5 (by decide)) (key 6 (by decide)) (key 7 (by decide))

theorem matBE_inj {n : Nat} {a b : Arr 64 n} (h : Groestl.mat a = Groestl.mat b) : a = b := by
  apply Arr.ext_get
  intro i hi
  apply byteAt_inj
  intro j hj
  have e : 7 - (7 - j) = j := by omega
  rw [← e, ← Groestl.cell_mat a hi (show 7 - j < 8 by omega), ← Groestl.cell_mat b hi (show 7 - j < 8 by omega), h]

/-- `(x ⊕ a ⊕ b) ⊕ a ⊕ b = x` for matrices. -/
theorem xx_cancel {x : Grid} (hx : Shaped 8 x) (a b : Grid) :
    gridXor 8 8 (gridXor 8 8 (Spec.Streebog.X (Spec.Streebog.X x a) b) a) b = x := by
  refine shaped_ext ⟨_, rfl⟩ hx ?_
  intro i hi j hj
  simp only [Spec.Streebog.X, gridXor, cell_grid _ _ _ hi hj]
  rw [show cell x i j ^^^ cell a i j ^^^ cell b i j ^^^ cell a i j ^^^ cell b i j =
    cell x i j ^^^ (cell a i j ^^^ cell a i j) ^^^ (cell b i j ^^^ cell b i j) by ac_rfl]
  simp

theorem bijOn_bytes {α : Type} [Finite α] {n : Nat} {f : List α → List α} (h1 : ∀ b, b.length = n → (f b).length = n)
    (h2 : ∀ b b', b.length = n → b'.length = n → f b = f b' → b = b') : Set.BijOn f {b | b.length = n} {b | b.length = n} := by
  have inj : Set.InjOn f {b | b.length = n} := fun a ha b hb h => h2 a b ha hb h
  have maps : Set.MapsTo f {b | b.length = n} {b | b.length = n} := fun a ha => h1 a ha
  exact (Set.Finite.injOn_iff_bijOn_of_mapsTo (finite_lists (α := α) n) maps).1 inj

theorem flatten_inj {n : Nat} {a b : Grid} (ha : Shaped n a) (hb : Shaped n b) (h : a.flatten = b.flatten) : a = b := by
  rw [← ha.gridOf, ← hb.gridOf, h]

theorem gridOf_inj {n : Nat} {a b : Bytes} (ha : a.length = 8 * n) (hb : b.length = 8 * n) (h : gridOf n 8 a = gridOf n 8 b) : a = b := by
  apply List.ext_getElem (by omega)
  intro i h1 h2
  have := grid_cells h (show i / 8 < n by omega) (show i % 8 < 8 by omega)
  simp only [show 8 * (i / 8) + i % 8 = i by omega] at this
  simpa [List.getD_eq_getElem?_getD, h1, h2] using this

theorem length_xorLanes (bs : List Bytes) (ws : List W64) : (Sha3.xorLanes bs ws).length = ws.length := by
  induction bs generalizing ws with
  | nil => rfl
  | cons b bs ih => cases ws with
    | nil => rfl
    | cons w ws => simp only [Sha3.xorLanes, List.length_cons, ih]

theorem xorLanes_inj (bs : List Bytes) : Injective (Sha3.xorLanes bs) := by
  induction bs with
  | nil =>
    intro x y h
    simpa only [Sha3.xorLanes] using h
  | cons b bs ih =>
    intro x y h
    cases x with
    | nil => cases y with
      | nil => rfl
      | cons => cases h
    | cons u x => cases y with
      | nil => cases h
      | cons v y =>
        simp only [Sha3.xorLanes, List.cons.injEq] at h
        rw [xor_left_eq h.1, ih h.2]

theorem bijOn_absorb (nr : Nat) (hnr : nr ≤ 24) (blks : List Bytes) :
    Set.BijOn (fun s => blks.foldl (Sha3.absorbBlock (Sha3.P1600.p1600 nr)) s) {s | s.length = 25} {s | s.length = 25} := by
  have len : ∀ (b : Bytes) (s : List W64), s.length = 25 → (Sha3.absorbBlock (Sha3.P1600.p1600 nr) s b).length = 25 := fun b s hs =>
    Sha3.P1600.length_p1600 nr (by rw [length_xorLanes]; exact hs)
  have step : ∀ (b : Bytes) (s t : List W64), s.length = 25 → t.length = 25 →
      Sha3.absorbBlock (Sha3.P1600.p1600 nr) s b = Sha3.absorbBlock (Sha3.P1600.p1600 nr) t b → s = t := by
    intro b s t hs ht h
    have ls : (Sha3.xorLanes (chunks 8 b) s).length = 25 := by rw [length_xorLanes]; exact hs
    have lt : (Sha3.xorLanes (chunks 8 b) t).length = 25 := by rw [length_xorLanes]; exact ht
    rw [Sha3.absorbBlock, Sha3.absorbBlock, Sha3.P1600.p1600_eq hnr ls, Sha3.P1600.p1600_eq hnr lt] at h
    exact xorLanes_inj _ (keccakP_inj nr ls lt h)
  apply bijOn_bytes
  · induction blks with
    | nil => exact fun _ h => h
    | cons b l ih => exact fun s hs => ih _ (len b s hs)
  · induction blks with
    | nil => exact fun _ _ _ _ h => h
    | cons b l ih => exact fun s t hs ht h => step b s t hs ht (ih _ _ (len b s hs) (len b t ht) h)

theorem shaped_mat {n : Nat} (a : Arr 64 n) : Shaped n (Groestl.mat a) := ⟨_, rfl⟩
theorem shaped_matW (a : V8 W64) : Shaped 8 (Whirlpool.mat a) := by unfold Whirlpool.mat gridLE; exact ⟨_, rfl⟩

theorem tiger_ff (u : Tiger.V3) (r : Spec.Tiger.Regs) (s : Tiger.V3) (h : u.regs = (r.1 ^^^ s.x0, r.2.1 - s.x1, r.2.2 + s.x2)) :
    (u.x0 ^^^ s.x0, u.x1 + s.x1, u.x2 - s.x2) = r := by
  simp only [Tiger.V3.regs, Prod.mk.injEq] at h
  rw [h.1, h.2.1, h.2.2, BitVec.xor_assoc, BitVec.xor_self, BitVec.xor_zero, BitVec.sub_add_cancel, BitVec.add_sub_cancel]

theorem arr_ofFn_eq {w n : Nat} {f g : Nat → BitVec w} (h : Arr.ofFn n f = Arr.ofFn n g) (i : Nat) (hi : i < n) : f i = g i := by
  rw [← Arr.get_ofFn f hi, ← Arr.get_ofFn g hi, h]

theorem groestl_ff {n : Nat} (g : Groestl.Cfg) (hP : Injective (Groestl.permP (n := n) g)) (b : Bytes) :
    Injective fun h : Arr 64 n => (Arr.ofFn n fun i => (Groestl.compress g h b).get i ^^^ h.get i : Arr 64 n) := by
  intro h h' e
  have key : Groestl.permP g (Arr.ofFn n fun i => h.get i ^^^ (Arr.ofFn n (wordBE 64 b)).get i) =
      Groestl.permP g (Arr.ofFn n fun i => h'.get i ^^^ (Arr.ofFn n (wordBE 64 b)).get i) := by
    apply Arr.ext_get
    intro i hi
    have := arr_ofFn_eq e i hi
    simp only [Groestl.compress, Arr.get_ofFn _ hi] at this
    rw [show ∀ a b c : W64, a ^^^ (b ^^^ c) ^^^ a = b ^^^ c ^^^ (a ^^^ a) from fun a b c => by ac_rfl,
      show ∀ a b c : W64, a ^^^ (b ^^^ c) ^^^ a = b ^^^ c ^^^ (a ^^^ a) from fun a b c => by ac_rfl,
      BitVec.xor_self, BitVec.xor_self] at this
    exact xor_right_eq (xor_left_eq this)
  exact Arr.ext_get fun i hi => xor_left_eq (arr_ofFn_eq (hP key) i hi)

end Hashes.Perm
