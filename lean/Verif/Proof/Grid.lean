import Verif.Spec.Grid
import Verif.Base.Vec
import Verif.Proof.Words
/- Grids of bytes versus arrays of 64-bit words. -/
namespace Hashes
open Spec

theorem getD_map_range {α : Type} (n : Nat) (f : Nat → α) (d : α) {i : Nat} (h : i < n) :
    ((List.range n).map f).getD i d = f i := by
  simp [List.getD, h]

theorem cell_grid (n m : Nat) (f : Nat → Nat → Byte) {a b : Nat} (ha : a < n) (hb : b < m) :
    cell (grid n m f) a b = f a b := by
  rw [cell, grid, getD_map_range _ _ _ ha, getD_map_range _ _ _ hb]

theorem grid_congr {n m : Nat} {f g : Nat → Nat → Byte} (h : ∀ a < n, ∀ b < m, f a b = g a b) :
    grid n m f = grid n m g := by
  unfold grid
  apply List.map_congr_left
  intro a ha
  apply List.map_congr_left
  intro b hb
  exact h a (List.mem_range.1 ha) b (List.mem_range.1 hb)

/-- Byte `j` of a word, least significant first. -/
def byteAt {w : Nat} (x : BitVec w) (j : Nat) : Byte := x.extractLsb' (8 * j) 8

theorem byteAt_xor {w : Nat} (x y : BitVec w) (j : Nat) : byteAt (x ^^^ y) j = byteAt x j ^^^ byteAt y j := by
  apply BitVec.eq_of_getLsbD_eq
  intro i hi
  simp [byteAt, hi]

@[simp] theorem byteAt_zero {w : Nat} (j : Nat) : byteAt (0 : BitVec w) j = 0 := by
  apply BitVec.eq_of_getLsbD_eq
  intro i hi
  simp [byteAt, hi]

theorem toNat_byteAt {w : Nat} (x : BitVec w) (j : Nat) : (byteAt x j).toNat = x.toNat / 2 ^ (8 * j) % 256 := by
  simp [byteAt, BitVec.extractLsb'_toNat, Nat.shiftRight_eq_div_pow]

/-- `((x >> 8j) & 0xff) as usize` -/
theorem toNat_shift_and (x : W64) (j : Nat) : ((x >>> (8 * j)) &&& 0xff).toNat = (byteAt x j).toNat := by
  rw [toNat_byteAt, BitVec.toNat_and, BitVec.toNat_ushiftRight, Nat.shiftRight_eq_div_pow]
  exact Nat.and_two_pow_sub_one_eq_mod _ 8

theorem leBytes_eq_map (n x : Nat) : leBytes n x = (List.range n).map fun j => BitVec.ofNat 8 (x / 2 ^ (8 * j)) := by
  induction n generalizing x with
  | zero => rfl
  | succ n ih =>
    rw [leBytes, ih, List.range_succ_eq_map, List.map_cons, List.map_map]
    congr 1
    · simp
    · apply List.map_congr_left
      intro j _
      simp only [Function.comp, Nat.div_div_eq_div_mul]
      rw [show 256 * 2 ^ (8 * j) = 2 ^ (8 * (j + 1)) by rw [Nat.mul_add, Nat.pow_add]; omega]

theorem ofNat_byteAt {w : Nat} (x : BitVec w) (j : Nat) : BitVec.ofNat 8 (x.toNat / 2 ^ (8 * j)) = byteAt x j := by
  apply BitVec.eq_of_toNat_eq
  rw [toNat_byteAt, BitVec.toNat_ofNat]

theorem leBytes_word {w : Nat} (n : Nat) (x : BitVec w) : leBytes n x.toNat = (List.range n).map (byteAt x) := by
  rw [leBytes_eq_map]
  exact List.map_congr_left fun j _ => ofNat_byteAt x j

/-- Byte `j` of a word read from bytes. -/
theorem byteAt_wordLE (raw : Bytes) (i j : Nat) (hj : j < 8) (hr : 8 * i + 8 ≤ raw.length) :
    byteAt (wordLE 64 raw i) j = raw.getD (8 * i + j) 0 := by
  have hl : ((raw.drop (64 / 8 * i)).take (64 / 8)).length = 8 := by simp; omega
  have h := leBytes_ofLE' hl
  have h2 : leBytes 8 (wordLE 64 raw i).toNat = (raw.drop (64 / 8 * i)).take (64 / 8) := by
    rw [wordLE, leBytes_counter (by decide), h]
  rw [leBytes_word] at h2
  have h3 := congrArg (fun l => l.getD j 0) h2
  simp only [getD_map_range _ _ _ hj] at h3
  rw [h3]
  simp only [List.getD_eq_getElem?_getD]
  rw [List.getElem?_take_of_lt hj, List.getElem?_drop]

/-- Byte `t` of a word packed from bytes. -/
theorem byteAt_pack (f : Nat → Byte) {t : Nat} (ht : t < 8) :
    byteAt (BitVec.ofNat 64 (ofLE ((List.range 8).map f))) t = f t := by
  have h : leBytes 8 (BitVec.ofNat 64 (ofLE ((List.range 8).map f))).toNat = (List.range 8).map f := by
    rw [leBytes_counter (by decide), leBytes_ofLE' (by simp)]
  rw [leBytes_word] at h
  have h3 := congrArg (fun l => l.getD t 0) h
  simpa only [getD_map_range _ _ _ ht] using h3

theorem byteAt_packBE (f : Nat → Byte) {t : Nat} (ht : t < 8) :
    byteAt (BitVec.ofNat 64 (ofBE ((List.range 8).map f))) (7 - t) = f t := by
  have e : ((List.range 8).map f).reverse = (List.range 8).map fun i => f (7 - i) := by
    simp [show List.range 8 = [0, 1, 2, 3, 4, 5, 6, 7] from rfl]
  rw [ofBE, e, byteAt_pack _ (by omega)]
  rw [show 7 - (7 - t) = t by omega]

theorem byteAt_inj {x y : W64} (h : ∀ j < 8, byteAt x j = byteAt y j) : x = y := by
  apply BitVec.eq_of_toNat_eq
  have e : leBytes 8 x.toNat = leBytes 8 y.toNat := by
    rw [leBytes_word, leBytes_word]
    exact List.map_congr_left fun j hj => h j (List.mem_range.1 hj)
  have := leBytes_inj e
  rwa [Nat.mod_eq_of_lt, Nat.mod_eq_of_lt] at this
  · exact y.isLt
  · exact x.isLt

theorem xorSum8 (f : Nat → Byte) :
    xorSum 8 f = f 0 ^^^ f 1 ^^^ f 2 ^^^ f 3 ^^^ f 4 ^^^ f 5 ^^^ f 6 ^^^ f 7 := by
  simp [xorSum, show List.range 8 = [0, 1, 2, 3, 4, 5, 6, 7] from rfl]

/-- The grid whose lines are the little-endian bytes of the words. -/
def gridLE (n : Nat) (s : Nat → W64) : Grid := grid n 8 fun i j => byteAt (s i) j

/-- The grid whose lines are the big-endian bytes of the words. -/
def gridBE (n : Nat) (s : Nat → W64) : Grid := grid n 8 fun i j => byteAt (s i) (7 - j)

theorem V8.get_ofFn {α : Type} (f : Nat → α) {i : Nat} (h : i < 8) : (V8.ofFn f).get i = f i := by
  match i, h with
  | 0, _ | 1, _ | 2, _ | 3, _ | 4, _ | 5, _ | 6, _ | 7, _ => rfl

end Hashes
