import Verif.Proof.Loong
/- A memory laid out as in a call of the LoongArch backends: the preconditions of those functions can be met for every input. -/
namespace Hashes.Loong

/-- `blks` from address 0, `other` from address 2^63. -/
def layout (blks : List Bytes) (other : Bytes) : Mem := fun x =>
  if x.toNat < 2 ^ 63 then blks.flatten.getD x.toNat 0 else other.getD (x.toNat - 2 ^ 63) 0

theorem flatten_block {bs : Nat} {blks : List Bytes} (hb : ∀ b ∈ blks, b.length = bs) {k : Nat} (hk : k < blks.length) :
    (blks.flatten.drop (bs * k)).take bs = blks[k] := by
  induction blks generalizing k with
  | nil => simp at hk
  | cons b blks ih =>
    have h1 := hb b (by simp)
    cases k with
    | zero => simp [← h1]
    | succ k =>
      rw [List.flatten_cons, Nat.mul_succ, List.drop_append, List.drop_of_length_le (by omega), List.nil_append, h1, Nat.add_sub_cancel,
        ih (fun b h => hb b (by simp [h])) (by simpa using hk)]
      rfl

theorem length_flatten {bs : Nat} {blks : List Bytes} (hb : ∀ b ∈ blks, b.length = bs) : blks.flatten.length = bs * blks.length := by
  induction blks with
  | nil => rfl
  | cons b blks ih =>
    rw [List.flatten_cons, List.length_append, ih (fun b h => hb b (by simp [h])), hb b (by simp), List.length_cons, Nat.mul_succ, Nat.add_comm]

theorem map_getD_range (l : Bytes) (p n : Nat) (h : p + n ≤ l.length) :
    (List.range n).map (fun k => l.getD (p + k) 0) = (l.drop p).take n := by
  apply List.ext_getElem
  · simp; omega
  · intro i h1 h2
    simp at h1 h2
    rw [List.getElem_map, List.getElem_range, List.getElem_take, List.getElem_drop, List.getD_eq_getElem?_getD, List.getElem?_eq_getElem (by omega), Option.getD_some]

theorem blocksAt_layout {bs : Nat} {blks : List Bytes} (hb : ∀ b ∈ blks, b.length = bs) (hn : bs * blks.length < 2 ^ 63) (other : Bytes) :
    blocksAt bs (layout blks other) (BitVec.ofNat 64 0) blks.length = blks := by
  apply List.ext_getElem
  · simp [blocksAt]
  · intro k h1 h2
    have hl := length_flatten hb
    have hk : bs * k + bs ≤ bs * blks.length := by rw [← Nat.mul_succ]; exact Nat.mul_le_mul_left _ h2
    rw [← flatten_block hb h2, ← map_getD_range _ _ _ (by omega)]
    simp only [blocksAt, List.getElem_map, List.getElem_range, bytesAt]
    apply List.map_congr_left
    intro i hi
    rw [List.mem_range] at hi
    have e : (BitVec.ofNat 64 0 + BitVec.ofNat 64 (bs * k) + BitVec.ofNat 64 i).toNat = bs * k + i := by
      simp only [BitVec.zero_add, BitVec.toNat_add, BitVec.toNat_ofNat]
      omega
    rw [layout, e, if_pos (by omega)]

theorem ld_layout {w : Nat} (hw : 8 ∣ w) (blks : List Bytes) (ws : List (BitVec w)) (hn : w / 8 * ws.length < 2 ^ 63) {i : Nat} (hi : i < ws.length) :
    ld w (layout blks (bytesOfWordsLE ws)) (BitVec.ofNat 64 (2 ^ 63 + w / 8 * i)) = ws.getD i 0 := by
  have hl : (bytesOfWordsLE ws).length = w / 8 * ws.length := by
    unfold bytesOfWordsLE
    clear hn hi
    induction ws with
    | nil => rfl
    | cons a ws ih => rw [List.flatMap_cons, List.length_append, ih, length_leBytes, List.length_cons, Nat.mul_succ, Nat.add_comm]
  have hk : w / 8 * i + w / 8 ≤ w / 8 * ws.length := by rw [← Nat.mul_succ]; exact Nat.mul_le_mul_left _ hi
  have hww : wordLE w (bytesOfWordsLE ws) i = ws.getD i 0 := by
    have := wordLE_append (w := w) hw ws [] 0 (i := i) hi
    simpa using this
  rw [← hww, ld, wordLE, ← map_getD_range _ _ _ (by omega), bytesAt]
  congr 2
  apply List.map_congr_left
  intro k hk
  rw [List.mem_range] at hk
  have e : (BitVec.ofNat 64 (2 ^ 63 + w / 8 * i) + BitVec.ofNat 64 k).toNat = 2 ^ 63 + (w / 8 * i + k) := by
    simp only [BitVec.toNat_add, BitVec.toNat_ofNat]
    omega
  rw [layout, e, if_neg (by omega), Nat.add_sub_cancel_left]

theorem ld_table {w : Nat} (hw : 8 ∣ w) (blks : List Bytes) (T ws : List (BitVec w)) (hn : w / 8 * (T.length + ws.length) < 2 ^ 63) {i : Nat} (hi : i < T.length) :
    ld w (layout blks (bytesOfWordsLE (T ++ ws))) (BitVec.ofNat 64 (2 ^ 63) + BitVec.ofNat 64 (w / 8 * i)) = T.getD i 0 := by
  rw [← BitVec.ofNat_add, ld_layout hw _ _ (by rwa [List.length_append]) (by rw [List.length_append]; omega), List.getD_eq_getElem?_getD,
    List.getElem?_append_left hi, ← List.getD_eq_getElem?_getD]

theorem ld_state {w : Nat} (hw : 8 ∣ w) (blks : List Bytes) (T ws : List (BitVec w)) (hn : w / 8 * (T.length + ws.length) < 2 ^ 63) {i : Nat} (hi : i < ws.length) :
    ld w (layout blks (bytesOfWordsLE (T ++ ws))) (BitVec.ofNat 64 (2 ^ 63 + w / 8 * T.length) + BitVec.ofNat 64 (w / 8 * i)) = ws.getD i 0 := by
  rw [← BitVec.ofNat_add, Nat.add_assoc, ← Nat.mul_add, ld_layout hw _ _ (by rwa [List.length_append]) (by rw [List.length_append]; omega),
    List.getD_eq_getElem?_getD, List.getElem?_append_right (Nat.le_add_right _ _), Nat.add_sub_cancel_left, ← List.getD_eq_getElem?_getD]

/-- Areas that do not wrap around, one after the other. -/
theorem disj_of_lt {p n q m : Nat} (h : p + n ≤ q) (hq : q + m ≤ 2 ^ 64) : Disj (BitVec.ofNat 64 p) n (BitVec.ofNat 64 q) m := by
  intro x hx
  have hx' := x.isLt
  simp only [BitVec.toNat_sub, BitVec.toNat_ofNat] at hx ⊢
  omega

end Hashes.Loong
