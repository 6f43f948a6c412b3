import Verif.Proof.Grid
import Verif.Proof.Limbs
/- Bytes of wide bit vectors. -/
namespace Hashes

theorem ofLE_div (b : Bytes) (j : Nat) : BitVec.ofNat 8 (ofLE b / 2 ^ (8 * j)) = b.getD j 0 := by
  induction b generalizing j with
  | nil => simp [ofLE]
  | cons x b ih =>
    have hx := x.isLt
    cases j with
    | zero =>
      apply BitVec.eq_of_toNat_eq
      simp [ofLE]; omega
    | succ j =>
      rw [List.getD_cons_succ, ← ih j, ofLE, show 8 * (j + 1) = 8 + 8 * j by omega, Nat.pow_add, ← Nat.div_div_eq_div_mul,
        show (x.toNat + 256 * ofLE b) / 2 ^ 8 = ofLE b by omega]

theorem byteAt_ofNat {w : Nat} (x j : Nat) (h : 8 * j + 8 ≤ w) :
    byteAt (BitVec.ofNat w x) j = BitVec.ofNat 8 (x / 2 ^ (8 * j)) := by
  apply BitVec.eq_of_getLsbD_eq
  intro i hi
  simp only [byteAt, BitVec.getLsbD_extractLsb', BitVec.getLsbD_ofNat, Nat.testBit_div_two_pow, hi, decide_true, Bool.true_and]
  have : 8 * j + i < w := by omega
  simp only [this, decide_true, Bool.true_and]
  rw [Nat.add_comm]

theorem byteAt_ofLE {w : Nat} (b : Bytes) (j : Nat) (h : 8 * j + 8 ≤ w) :
    byteAt (BitVec.ofNat w (ofLE b)) j = b.getD j 0 := by rw [byteAt_ofNat _ _ h, ofLE_div]

/-- A bit vector is determined by its bytes. -/
theorem byteAt_ext {w k : Nat} (hw : w = 8 * k) {x y : BitVec w} (h : ∀ j < k, byteAt x j = byteAt y j) : x = y := by
  apply BitVec.eq_of_getLsbD_eq
  intro i hi
  have h1 := congrArg (fun b => b.getLsbD (i % 8)) (h (i / 8) (by omega))
  simp only [byteAt, BitVec.getLsbD_extractLsb'] at h1
  have : i % 8 < 8 := Nat.mod_lt _ (by decide)
  simp only [this, decide_true, Bool.true_and] at h1
  rwa [Nat.div_add_mod] at h1

theorem byteAt_append_lt {v w k : Nat} (hw : w = 8 * k) (x : BitVec v) (y : BitVec w) {j : Nat} (hj : j < k) :
    byteAt (x ++ y) j = byteAt y j := by
  apply BitVec.eq_of_getLsbD_eq
  intro i hi
  simp only [byteAt, BitVec.getLsbD_extractLsb', BitVec.getLsbD_append, hi, decide_true, Bool.true_and]
  rw [if_pos (by omega)]

theorem byteAt_append_ge {v w k : Nat} (hw : w = 8 * k) (x : BitVec v) (y : BitVec w) {j : Nat} (hj : k ≤ j) :
    byteAt (x ++ y) j = byteAt x (j - k) := by
  apply BitVec.eq_of_getLsbD_eq
  intro i hi
  simp only [byteAt, BitVec.getLsbD_extractLsb', BitVec.getLsbD_append, hi, decide_true, Bool.true_and]
  rw [if_neg (by omega), show 8 * j + i - w = 8 * (j - k) + i by omega]

theorem byteAt_extract {v w s o : Nat} (hs : s = 8 * o) (x : BitVec v) {j : Nat} (hj : 8 * j + 8 ≤ w) :
    byteAt (x.extractLsb' s w) j = byteAt x (o + j) := by
  apply BitVec.eq_of_getLsbD_eq
  intro i hi
  simp only [byteAt, BitVec.getLsbD_extractLsb', hi, decide_true, Bool.true_and]
  have : 8 * j + i < w := by omega
  simp only [this, decide_true, Bool.true_and]
  congr 1; omega

theorem getD_leBytes {w n : Nat} (x : BitVec w) {j : Nat} (hj : j < n) : (leBytes n x.toNat).getD j 0 = byteAt x j := by
  rw [leBytes_word, getD_map_range _ _ _ hj]

theorem getD_append_lt {a b : Bytes} {j : Nat} (h : j < a.length) : (a ++ b).getD j 0 = a.getD j 0 := by
  rw [List.getD_eq_getElem?_getD, List.getElem?_append_left h, ← List.getD_eq_getElem?_getD]

theorem getD_append_ge {a b : Bytes} {j : Nat} (h : a.length ≤ j) : (a ++ b).getD j 0 = b.getD (j - a.length) 0 := by
  rw [List.getD_eq_getElem?_getD, List.getElem?_append_right h, ← List.getD_eq_getElem?_getD]

theorem getD_drop (a : Bytes) (i j : Nat) : (a.drop i).getD j 0 = a.getD (i + j) 0 := by
  rw [List.getD_eq_getElem?_getD, List.getElem?_drop, ← List.getD_eq_getElem?_getD]

theorem getD_take {a : Bytes} {n j : Nat} (h : j < n) : (a.take n).getD j 0 = a.getD j 0 := by
  rw [List.getD_eq_getElem?_getD, List.getElem?_take_of_lt h, ← List.getD_eq_getElem?_getD]

end Hashes
