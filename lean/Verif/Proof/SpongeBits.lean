import Verif.Proof.Sponge
/- FIPS 202's bit-level sponge on byte strings equals the byte-level one. -/
namespace Hashes.Spec

@[simp] theorem length_bitsOfNat (n x : Nat) : (bitsOfNat n x).length = n := by
  induction n generalizing x with
  | zero => rfl
  | succ n ih => simp [bitsOfNat, ih]

theorem bitsOf_cons (x : Byte) (b : Bytes) : bitsOf (x :: b) = bitsOfNat 8 x.toNat ++ bitsOf b := by simp [bitsOf]

@[simp] theorem bitsOf_nil : bitsOf [] = [] := rfl

theorem bitsOf_append (a b : Bytes) : bitsOf (a ++ b) = bitsOf a ++ bitsOf b := by simp [bitsOf]

@[simp] theorem length_bitsOf (b : Bytes) : (bitsOf b).length = 8 * b.length := by
  induction b with
  | nil => rfl
  | cons x b ih => rw [bitsOf_cons, List.length_append, ih]; simp; omega

theorem bitsOf_zeros (n : Nat) : bitsOf (List.replicate n 0) = List.replicate (8 * n) false := by
  induction n with
  | zero => rfl
  | succ n ih =>
    rw [List.replicate_succ, bitsOf_cons, ih, show 8 * (n + 1) = 8 + 8 * n by omega, ← List.replicate_append_replicate]
    rfl

theorem bitsOfNat_add (m n x : Nat) : bitsOfNat (m + n) x = bitsOfNat m x ++ bitsOfNat n (x / 2 ^ m) := by
  induction m generalizing x with
  | zero => simp [bitsOfNat]
  | succ m ih =>
    rw [Nat.add_right_comm]
    simp only [bitsOfNat, List.cons_append, ih]
    rw [Nat.div_div_eq_div_mul, Nat.pow_succ']

theorem natOfBits_bitsOfNat (n x : Nat) : natOfBits (bitsOfNat n x) = x % 2 ^ n := by
  induction n generalizing x with
  | zero => simp [bitsOfNat, natOfBits, Nat.mod_one]
  | succ n ih =>
    have h2 := Nat.mod_two_eq_zero_or_one x
    simp only [bitsOfNat, natOfBits, ih]
    rw [Nat.pow_succ', Nat.mod_mul]
    rcases h2 with h | h <;> simp [h]

theorem bitsOfNat_mod (n x : Nat) : bitsOfNat n (x % 2 ^ n) = bitsOfNat n x := by
  induction n generalizing x with
  | zero => rfl
  | succ n ih =>
    simp only [bitsOfNat]
    have h1 : x % 2 ^ (n + 1) % 2 = x % 2 := by rw [Nat.pow_succ']; exact Nat.mod_mul_right_mod ..
    have h2 : x % 2 ^ (n + 1) / 2 = x / 2 % 2 ^ n := by rw [Nat.pow_succ']; exact Nat.mod_mul_right_div_self ..
    rw [h1, h2, ih]

theorem bitsOf_leBytes (n x : Nat) : bitsOf (leBytes n x) = bitsOfNat (8 * n) x := by
  induction n generalizing x with
  | zero => rfl
  | succ n ih =>
    rw [leBytes, bitsOf_cons, ih, show 8 * (n + 1) = 8 + 8 * n by omega, bitsOfNat_add, BitVec.toNat_ofNat, bitsOfNat_mod]

theorem natOfBits_append (a b : List Bool) : natOfBits (a ++ b) = natOfBits a + 2 ^ a.length * natOfBits b := by
  induction a with
  | nil => simp [natOfBits]
  | cons x a ih => simp only [List.cons_append, natOfBits, ih, List.length_cons, Nat.pow_succ', Nat.mul_add, Nat.mul_assoc,
      Nat.add_assoc]

theorem natOfBits_bitsOf (b : Bytes) : natOfBits (bitsOf b) = ofLE b := by
  induction b with
  | nil => rfl
  | cons x b ih =>
    rw [bitsOf_cons, natOfBits_append, ih, natOfBits_bitsOfNat, length_bitsOfNat, Nat.mod_eq_of_lt x.isLt]
    rfl

theorem take_bitsOf (n : Nat) (b : Bytes) : (bitsOf b).take (8 * n) = bitsOf (b.take n) := by
  induction n generalizing b with
  | zero => simp
  | succ n ih =>
    cases b with
    | nil => simp
    | cons x b =>
      rw [bitsOf_cons, List.take_succ_cons, bitsOf_cons, ← ih, List.take_append, List.take_of_length_le (by simp; omega)]
      simp only [length_bitsOfNat]
      rw [show 8 * (n + 1) - 8 = 8 * n by omega]

theorem drop_bitsOf (n : Nat) (b : Bytes) : (bitsOf b).drop (8 * n) = bitsOf (b.drop n) := by
  induction n generalizing b with
  | zero => simp
  | succ n ih =>
    cases b with
    | nil => simp
    | cons x b =>
      rw [bitsOf_cons, List.drop_succ_cons, ← ih, List.drop_append, List.drop_of_length_le (by simp; omega)]
      simp only [length_bitsOfNat, List.nil_append]
      rw [show 8 * (n + 1) - 8 = 8 * n by omega]

theorem blocks_bitsOf (n k : Nat) (b : Bytes) : blocks (8 * n) k (bitsOf b) = (blocks n k b).map bitsOf := by
  induction k generalizing b with
  | zero => rfl
  | succ k ih => simp only [blocks, List.map_cons, take_bitsOf, drop_bitsOf, ih]

theorem chunks_bitsOf (n : Nat) (b : Bytes) : chunks (8 * n) (bitsOf b) = (chunks n b).map bitsOf := by
  unfold chunks
  rw [length_bitsOf, Nat.mul_div_mul_left _ _ (by decide), blocks_bitsOf]

theorem bytesOf_bitsOf (b : Bytes) : bytesOf (bitsOf b) = b := by
  have h : chunks 8 (bitsOf b) = _ := chunks_bitsOf 1 b
  rw [bytesOf, h, List.map_map]
  have : ∀ b : Bytes, List.map ((fun c => BitVec.ofNat 8 (natOfBits c)) ∘ bitsOf) (chunks 1 b) = b := by
    intro b
    induction b with
    | nil => rfl
    | cons x b ih =>
      have : chunks 1 (x :: b) = [x] :: chunks 1 b := by simp [chunks, blocks]
      rw [this, List.map_cons, ih]
      simp only [Function.comp, natOfBits_bitsOf, ofLE]
      congr 1
      apply BitVec.eq_of_toNat_eq
      have := x.isLt
      simp
  exact this b

theorem bitsOfNat_xor (n x y : Nat) : bitsOfNat n (x ^^^ y) = Keccak.xorBits (bitsOfNat n x) (bitsOfNat n y) := by
  induction n generalizing x y with
  | zero => rfl
  | succ n ih =>
    have hd : (x ^^^ y) / 2 = x / 2 ^^^ y / 2 := Nat.xor_div_two_pow (n := 1)
    have hm : (x ^^^ y) % 2 = x % 2 ^^^ y % 2 := Nat.xor_mod_two_pow (n := 1)
    simp only [Keccak.xorBits] at ih
    simp only [bitsOfNat, hd, ih, Keccak.xorBits, List.zipWith_cons_cons, hm]
    congr 1
    rcases Nat.mod_two_eq_zero_or_one x with h | h <;> rcases Nat.mod_two_eq_zero_or_one y with h' | h' <;> simp [h, h']

namespace Keccak

theorem xorBits_append {a b c d : List Bool} (h : a.length = c.length) :
    xorBits (a ++ b) (c ++ d) = xorBits a c ++ xorBits b d := by
  simp [xorBits, List.zipWith_append h]

theorem bitsOf_xorBytes (a b : Bytes) : bitsOf (xorBytes a b) = xorBits (bitsOf a) (bitsOf b) := by
  induction a generalizing b with
  | nil => simp [xorBytes, xorBits]
  | cons x a ih =>
    cases b with
    | nil => simp [xorBytes, xorBits]
    | cons y b =>
      have := ih b
      simp only [xorBytes] at this
      simp only [xorBytes, List.zipWith_cons_cons, bitsOf_cons, this]
      rw [xorBits_append (by simp), BitVec.toNat_xor, bitsOfNat_xor]

theorem onBits_bitsOf (f : List W64 → List W64) (S : Bytes) : onBits f (bitsOf S) = bitsOf (onBytes f S) := by
  unfold onBits onBytes
  have e : ∀ i, BitVec.ofNat 64 (natOfBits (((bitsOf S).drop (64 * i)).take 64)) = wordLE 64 S i := by
    intro i
    rw [show 64 * i = 8 * (8 * i) by omega, drop_bitsOf, show (64 : Nat) = 8 * 8 from rfl, take_bitsOf, natOfBits_bitsOf]
    simp [wordLE, Nat.mul_comm]
  simp only [e]
  generalize f _ = l
  induction l with
  | nil => rfl
  | cons w l ih => rw [List.flatMap_cons, ih, bytesOfWordsLE_cons, bitsOf_append, bitsOf_leBytes]

theorem squeeze_bitsOf (f : List W64 → List W64) (r n : Nat) (S : Bytes) :
    squeeze f (8 * r) n (bitsOf S) = bitsOf (squeezeBytes f r n S) := by
  induction n generalizing S with
  | zero => rfl
  | succ n ih => simp only [squeeze, squeezeBytes, take_bitsOf, onBits_bitsOf, ih, bitsOf_append]

/-- `D` encodes the domain bits `suf` followed by the first bit of the padding. -/
def SepByte (suf : List Bool) (D : Byte) : Prop :=
  suf.length ≤ 6 ∧ bitsOfNat 8 D.toNat = suf ++ [true] ++ List.replicate (7 - suf.length) false ∧
  bitsOfNat 8 (D ||| 0x80).toNat = suf ++ [true] ++ List.replicate (6 - suf.length) false ++ [true] ∧ D.toNat < 128

instance (suf : List Bool) (D : Byte) : Decidable (SepByte suf D) := by unfold SepByte; infer_instance

theorem bitsOf_finish {suf : List Bool} {D : Byte} (h : SepByte suf D) {n : Nat} (hn : 0 < n) :
    bitsOf (Sha3.finish D n) = suf ++ ([true] ++ List.replicate (8 * n - suf.length - 2) false ++ [true]) := by
  obtain ⟨h1, h2, h3, -⟩ := h
  match n, hn with
  | 1, _ =>
    simp only [Sha3.finish, bitsOf_cons, bitsOf_nil, h3, List.append_nil, List.append_assoc]
    rw [show 8 * 1 - suf.length - 2 = 6 - suf.length by omega]
  | n + 2, _ =>
    have e : bitsOf [0x80] = List.replicate 7 false ++ [true] := by decide
    simp only [Sha3.finish, bitsOf_cons, bitsOf_append, bitsOf_zeros, h2, e, List.append_assoc]
    rw [show 8 * (n + 2) - suf.length - 2 = (7 - suf.length) + (8 * n + 7) by omega]
    simp only [← List.replicate_append_replicate, List.append_assoc]

theorem pad_eq {suf : List Bool} {D : Byte} (h : SepByte suf D) {r : Nat} (hr : 0 < r) (m : Bytes) :
    (bitsOf m ++ suf) ++ pad101 (8 * r) (bitsOf m ++ suf).length = bitsOf (m ++ Sha3.finish D (r - m.length % r)) := by
  have hlt := Nat.mod_lt m.length hr
  rw [bitsOf_append, bitsOf_finish h (by omega), List.append_assoc]
  congr 2
  unfold pad101
  congr 3
  have hm : (8 * m.length) % (8 * r) = 8 * (m.length % r) := Nat.mul_mod_mul_left ..
  simp only [List.length_append, length_bitsOf]
  have h6 := h.1
  generalize suf.length = q at *
  generalize ht : m.length % r = t at *
  rw [show 8 * m.length + q + 2 = 8 * m.length + (q + 2) by omega, Nat.add_mod, hm]
  by_cases hr1 : q + 2 < 8 * r
  · rw [Nat.mod_eq_of_lt hr1]
    by_cases hx : 8 * t + (q + 2) = 8 * r
    · rw [hx, Nat.mod_self]; simp; omega
    · rw [Nat.mod_eq_of_lt (show 8 * t + (q + 2) < 8 * r by omega),
        Nat.mod_eq_of_lt (show 8 * r - (8 * t + (q + 2)) < 8 * r by omega)]
      omega
  · have : r = 1 := by omega
    subst this
    have : t = 0 := by omega
    subst this
    have : q = 6 := by omega
    subst this
    decide

theorem absorbBytes_alt (f : List W64 → List W64) {rate : Nat} (h0 : 0 < rate) (hr : rate ≤ 200) {D : Byte}
    (hD : D.toNat < 128) (m : Bytes) :
    absorbBytes f rate D m = (chunks rate (m ++ Sha3.finish D (rate - m.length % rate))).foldl
      (fun S B => onBytes f (xorBytes S (B ++ List.replicate (200 - rate) 0))) (List.replicate 200 0) := by
  have hle := Nat.div_mul_le_self m.length rate
  have hdm := Nat.div_add_mod' m.length rate
  have hlt := Nat.mod_lt m.length h0
  rw [chunks_tail h0, chunks_single h0 (by simp; omega), List.foldl_append]
  simp only [absorbBytes, List.foldl_cons, List.foldl_nil]
  rw [List.length_append, List.length_singleton, Nat.add_sub_cancel, blocks_append_left _ _ _ _ hle,
    List.drop_append_of_le_length hle, xorBytes_assoc]
  rw [Sha3.finish_xor hD _ (by simp; omega) hr, List.length_drop]
  rw [show m.length - m.length / rate * rate = m.length % rate by omega]

theorem absorb_bitsOf (f : List W64 → List W64) {r : Nat} (h0 : 0 < r) (hr : r ≤ 200) {suf : List Bool} {D : Byte}
    (h : SepByte suf D) (m : Bytes) : absorb f (8 * r) (bitsOf m ++ suf) = bitsOf (absorbBytes f r D m) := by
  rw [absorb, pad_eq h h0, chunks_bitsOf, absorbBytes_alt f h0 hr h.2.2.2]
  generalize chunks r _ = l
  rw [show List.replicate 1600 false = bitsOf (List.replicate 200 0) by rw [bitsOf_zeros]]
  generalize List.replicate 200 (0 : Byte) = S
  induction l generalizing S with
  | nil => rfl
  | cons b l ih =>
    simp only [List.map_cons, List.foldl_cons]
    rw [← ih, show 1600 - 8 * r = 8 * (200 - r) by omega, ← bitsOf_zeros, ← bitsOf_append, ← bitsOf_xorBytes, onBits_bitsOf]

/-- The bit-level sponge of FIPS 202 and the byte-level sponge agree on byte strings. -/
theorem sponge_bytes (f : List W64 → List W64) {r : Nat} (h0 : 0 < r) (hr : r ≤ 200) {suf : List Bool} {D : Byte}
    (h : SepByte suf D) (m : Bytes) (L : Nat) :
    bytesOf (sponge f (8 * r) (bitsOf m ++ suf) (8 * L)) = spongeBytes f r D m L := by
  rw [sponge, absorb_bitsOf f h0 hr h, Nat.mul_div_mul_left _ _ (by decide), squeeze_bitsOf, take_bitsOf, bytesOf_bitsOf]
  rfl

end Keccak
end Hashes.Spec
