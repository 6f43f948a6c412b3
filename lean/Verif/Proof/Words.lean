import Verif.Base.Bytes
/- Word lists and their byte encodings. -/
namespace Hashes

theorem bytesOfWordsLE_cons {w : Nat} (x : BitVec w) (l : List (BitVec w)) :
    bytesOfWordsLE (x :: l) = leBytes (w / 8) x.toNat ++ bytesOfWordsLE l := by
  simp [bytesOfWordsLE]

theorem bytesOfWordsBE_cons {w : Nat} (x : BitVec w) (l : List (BitVec w)) :
    bytesOfWordsBE (x :: l) = beBytes (w / 8) x.toNat ++ bytesOfWordsBE l := by
  simp [bytesOfWordsBE]

theorem length_bytesOfWordsLE {w : Nat} (l : List (BitVec w)) :
    (bytesOfWordsLE l).length = l.length * (w / 8) := by
  induction l with
  | nil => simp [bytesOfWordsLE]
  | cons x l ih => rw [bytesOfWordsLE_cons]; simp [ih, Nat.add_mul]; omega

theorem length_bytesOfWordsBE {w : Nat} (l : List (BitVec w)) :
    (bytesOfWordsBE l).length = l.length * (w / 8) := by
  induction l with
  | nil => simp [bytesOfWordsBE]
  | cons x l ih => rw [bytesOfWordsBE_cons]; simp [ih, Nat.add_mul]; omega

theorem pow_word {w : Nat} (hw : 8 ∣ w) : 256 ^ (w / 8) = 2 ^ w := by
  rw [show (256 : Nat) = 2 ^ 8 from rfl, ← Nat.pow_mul, Nat.mul_div_cancel' hw]

theorem word_le {w : Nat} (hw : 8 ∣ w) (x : BitVec w) : BitVec.ofNat w (ofLE (leBytes (w / 8) x.toNat)) = x := by
  rw [ofLE_leBytes, pow_word hw, Nat.mod_eq_of_lt x.isLt]; simp

theorem word_be {w : Nat} (hw : 8 ∣ w) (x : BitVec w) : BitVec.ofNat w (ofBE (beBytes (w / 8) x.toNat)) = x := by
  rw [ofBE_beBytes, pow_word hw, Nat.mod_eq_of_lt x.isLt]; simp

theorem wordLE_append {w : Nat} (hw : 8 ∣ w) (l : List (BitVec w)) (t : Bytes) (d : BitVec w) {i : Nat}
    (hi : i < l.length) : wordLE w (bytesOfWordsLE l ++ t) i = l.getD i d := by
  induction l generalizing i with
  | nil => simp at hi
  | cons x l ih =>
    rw [bytesOfWordsLE_cons, List.append_assoc]
    cases i with
    | zero =>
      simp only [wordLE, Nat.mul_zero, List.drop_zero]
      rw [show (leBytes (w / 8) x.toNat ++ (bytesOfWordsLE l ++ t)).take (w / 8) = leBytes (w / 8) x.toNat by
        rw [List.take_append_of_le_length (by simp), List.take_of_length_le (by simp)]]
      rw [word_le hw]; rfl
    | succ i =>
      have := ih (i := i) (by simpa using hi)
      rw [List.getD_cons_succ, ← this]
      simp only [wordLE]
      rw [Nat.mul_add, Nat.mul_one, Nat.add_comm, ← List.drop_drop]
      congr 4
      rw [List.drop_append_of_le_length (by simp), List.drop_of_length_le (by simp), List.nil_append]

theorem wordLE_drop {w : Nat} (raw : Bytes) (i j : Nat) :
    wordLE w (raw.drop (w / 8 * j)) i = wordLE w raw (j + i) := by
  simp only [wordLE, List.drop_drop, Nat.mul_add]

theorem bytesOfWordsLE_range {w : Nat} (hw : 8 ∣ w) (raw : Bytes) (n : Nat) (h : n * (w / 8) ≤ raw.length) :
    bytesOfWordsLE ((List.range n).map (wordLE w raw)) = raw.take (n * (w / 8)) := by
  induction n with
  | zero => simp [bytesOfWordsLE]
  | succ n ih =>
    have h' : n * (w / 8) + w / 8 ≤ raw.length := by rw [Nat.add_mul] at h; omega
    rw [List.range_succ, List.map_append, bytesOfWordsLE, List.flatMap_append]
    rw [← bytesOfWordsLE, ih (by omega)]
    simp only [List.map_cons, List.map_nil, List.flatMap_cons, List.flatMap_nil, List.append_nil, wordLE]
    rw [Nat.add_mul, Nat.one_mul, List.take_add, Nat.mul_comm (w / 8) n]
    congr 1
    rw [BitVec.toNat_ofNat, ← pow_word hw, leBytes_mod, leBytes_ofLE' (by simp; omega)]

/-- 64-bit counters stored in 8 little-endian bytes. -/
theorem counter_round {n w : Nat} (hw : 256 ^ n = 2 ^ w) (x : BitVec w) :
    BitVec.ofNat w (ofLE (leBytes n x.toNat)) = x := by
  rw [ofLE_leBytes, hw, Nat.mod_eq_of_lt x.isLt]; simp

theorem counter_canon {n w : Nat} (hw : 256 ^ n = 2 ^ w) {b : Bytes} (hb : b.length = n) :
    leBytes n (BitVec.ofNat w (ofLE b)).toNat = b := by
  rw [BitVec.toNat_ofNat, ← hw, leBytes_mod, leBytes_ofLE' hb]

theorem counter_canon_be {n w : Nat} (hw : 256 ^ n = 2 ^ w) {b : Bytes} (hb : b.length = n) :
    beBytes n (BitVec.ofNat w (ofBE b)).toNat = b := by
  rw [BitVec.toNat_ofNat, ← hw, beBytes, leBytes_mod, ← beBytes, beBytes_ofBE' hb]

theorem leBytes_counter {n w x : Nat} (hw : 256 ^ n = 2 ^ w) : leBytes n (BitVec.ofNat w x).toNat = leBytes n x := by
  rw [BitVec.toNat_ofNat, ← hw, leBytes_mod]

theorem beBytes_counter {n w x : Nat} (hw : 256 ^ n = 2 ^ w) : beBytes n (BitVec.ofNat w x).toNat = beBytes n x := by
  rw [beBytes, leBytes_counter hw, ← beBytes]

end Hashes
