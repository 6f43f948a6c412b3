/-
Shared vocabulary: bytes, words, little/big-endian encodings, splitting into blocks.
Nothing here models a particular Rust function except where noted; both the model and the
independent specifications use these elementary notions.
-/
namespace Hashes

/-- A byte (`u8`). -/
abbrev Byte := BitVec 8
/-- A byte string (`&[u8]`, `[u8; N]`). -/
abbrev Bytes := List Byte
/-- `u32` -/
abbrev W32 := BitVec 32
/-- `u64` -/
abbrev W64 := BitVec 64
/-- `u128` -/
abbrev W128 := BitVec 128

/-- `n`-byte little-endian encoding of `x` modulo `256^n`. -/
def leBytes : Nat → Nat → Bytes
  | 0, _ => []
  | n + 1, x => BitVec.ofNat 8 x :: leBytes n (x / 256)

/-- Value of a little-endian byte string. -/
def ofLE : Bytes → Nat
  | [] => 0
  | b :: bs => b.toNat + 256 * ofLE bs

/-- `n`-byte big-endian encoding of `x` modulo `256^n`. -/
def beBytes (n x : Nat) : Bytes := (leBytes n x).reverse

/-- Value of a big-endian byte string. -/
def ofBE (b : Bytes) : Nat := ofLE b.reverse

/-- The first `k` blocks of `n` elements of `l` (Rust: `chunks_exact(n)` when `k = len / n`). -/
def blocks {α : Type} (n : Nat) : Nat → List α → List (List α)
  | 0, _ => []
  | k + 1, l => l.take n :: blocks n k (l.drop n)

/-- All complete `n`-element blocks of `l`. -/
def chunks {α : Type} (n : Nat) (l : List α) : List (List α) := blocks n (l.length / n) l

/-- The `i`-th big-endian `w`-bit word of a byte string. -/
def wordBE (w : Nat) (l : Bytes) (i : Nat) : BitVec w :=
  BitVec.ofNat w (ofBE ((l.drop (w / 8 * i)).take (w / 8)))

/-- The `i`-th little-endian `w`-bit word of a byte string. -/
def wordLE (w : Nat) (l : Bytes) (i : Nat) : BitVec w :=
  BitVec.ofNat w (ofLE ((l.drop (w / 8 * i)).take (w / 8)))

/-- Big-endian bytes of a word list. -/
def bytesOfWordsBE {w : Nat} (l : List (BitVec w)) : Bytes := l.flatMap fun x => beBytes (w / 8) x.toNat

/-- Little-endian bytes of a word list. -/
def bytesOfWordsLE {w : Nat} (l : List (BitVec w)) : Bytes := l.flatMap fun x => leBytes (w / 8) x.toNat

/-! ### Lemmas -/

@[simp] theorem length_leBytes (n x : Nat) : (leBytes n x).length = n := by
  induction n generalizing x with
  | zero => rfl
  | succ n ih => simp [leBytes, ih]

@[simp] theorem length_beBytes (n x : Nat) : (beBytes n x).length = n := by simp [beBytes]

theorem ofLE_leBytes (n x : Nat) : ofLE (leBytes n x) = x % 256 ^ n := by
  induction n generalizing x with
  | zero => simp [leBytes, ofLE, Nat.mod_one]
  | succ n ih =>
    simp only [leBytes, ofLE, ih, BitVec.toNat_ofNat]
    rw [show 256 ^ (n + 1) = 256 * 256 ^ n by rw [Nat.pow_succ, Nat.mul_comm], Nat.mod_mul]

theorem ofLE_lt (b : Bytes) : ofLE b < 256 ^ b.length := by
  induction b with
  | nil => simp [ofLE]
  | cons x xs ih =>
    have := x.isLt
    simp only [ofLE, List.length_cons, Nat.pow_succ]
    omega

theorem leBytes_ofLE (b : Bytes) : leBytes b.length (ofLE b) = b := by
  induction b with
  | nil => rfl
  | cons x xs ih =>
    have := x.isLt
    simp only [ofLE, List.length_cons, leBytes]
    congr 1
    · apply BitVec.eq_of_toNat_eq
      simp only [BitVec.toNat_ofNat]; omega
    · rw [show (x.toNat + 256 * ofLE xs) / 256 = ofLE xs by omega]; exact ih

theorem leBytes_ofLE' {n : Nat} {b : Bytes} (h : b.length = n) : leBytes n (ofLE b) = b := by
  subst h; exact leBytes_ofLE b

theorem ofBE_beBytes (n x : Nat) : ofBE (beBytes n x) = x % 256 ^ n := by
  simp [ofBE, beBytes, ofLE_leBytes]

theorem beBytes_ofBE' {n : Nat} {b : Bytes} (h : b.length = n) : beBytes n (ofBE b) = b := by
  simp only [beBytes, ofBE]
  rw [leBytes_ofLE' (by simpa using h)]; simp

theorem ofBE_lt (b : Bytes) : ofBE b < 256 ^ b.length := by
  have := ofLE_lt b.reverse
  simpa [ofBE] using this

theorem leBytes_mod (n x : Nat) : leBytes n (x % 256 ^ n) = leBytes n x := by
  have h : ofLE (leBytes n x) = x % 256 ^ n := ofLE_leBytes n x
  rw [← h]; exact leBytes_ofLE' (by simp)

theorem leBytes_congr {n x y : Nat} (h : x % 256 ^ n = y % 256 ^ n) : leBytes n x = leBytes n y := by
  rw [← leBytes_mod n x, h, leBytes_mod]

theorem beBytes_congr {n x y : Nat} (h : x % 256 ^ n = y % 256 ^ n) : beBytes n x = beBytes n y := by
  simp [beBytes, leBytes_congr h]

theorem leBytes_inj {n x y : Nat} (h : leBytes n x = leBytes n y) : x % 256 ^ n = y % 256 ^ n := by
  rw [← ofLE_leBytes, ← ofLE_leBytes, h]

theorem beBytes_inj {n x y : Nat} (h : beBytes n x = beBytes n y) : x % 256 ^ n = y % 256 ^ n :=
  leBytes_inj (List.reverse_inj.mp h)

theorem leBytes_append (m n x : Nat) : leBytes (m + n) x = leBytes m x ++ leBytes n (x / 256 ^ m) := by
  induction m generalizing x with
  | zero => simp [leBytes]
  | succ m ih =>
    rw [show m + 1 + n = (m + n) + 1 by omega]
    simp only [leBytes, ih, List.cons_append]
    rw [Nat.div_div_eq_div_mul, Nat.pow_succ, Nat.mul_comm]

theorem leBytes_zero (n : Nat) : leBytes n 0 = List.replicate n 0 := by
  induction n with
  | zero => rfl
  | succ n ih => simp [leBytes, ih, List.replicate_succ]

theorem beBytes_zero (n : Nat) : beBytes n 0 = List.replicate n 0 := by
  simp [beBytes, leBytes_zero]

theorem beBytes_append (m n x : Nat) : beBytes (m + n) x = beBytes m (x / 256 ^ n) ++ beBytes n x := by
  simp only [beBytes]
  rw [Nat.add_comm, leBytes_append]; simp

/-! ### Blocks -/

theorem length_blocks {α : Type} (n k : Nat) (l : List α) : (blocks n k l).length = k := by
  induction k generalizing l with
  | zero => rfl
  | succ k ih => simp [blocks, ih]

theorem length_chunks {α : Type} (n : Nat) (l : List α) : (chunks n l).length = l.length / n :=
  length_blocks ..

theorem blocks_add {α : Type} (n j k : Nat) (l : List α) :
    blocks n (j + k) l = blocks n j l ++ blocks n k (l.drop (j * n)) := by
  induction j generalizing l with
  | zero => simp [blocks]
  | succ j ih =>
    rw [show j + 1 + k = (j + k) + 1 by omega]
    simp only [blocks, ih, List.cons_append, List.drop_drop]
    rw [show n + j * n = (j + 1) * n by rw [Nat.succ_mul]; omega]

theorem blocks_append_left {α : Type} (n k : Nat) (a b : List α) (h : k * n ≤ a.length) :
    blocks n k (a ++ b) = blocks n k a := by
  induction k generalizing a with
  | zero => rfl
  | succ k ih =>
    rw [Nat.succ_mul] at h
    simp only [blocks]
    rw [List.take_append_of_le_length (by omega), List.drop_append_of_le_length (by omega), ih]
    simp; omega

theorem blocks_append {α : Type} (n j k : Nat) (a b : List α) (h : a.length = j * n) :
    blocks n (j + k) (a ++ b) = blocks n j a ++ blocks n k b := by
  rw [blocks_add, blocks_append_left _ _ _ _ (by omega), ← h]; simp

theorem flatten_blocks {α : Type} (n k : Nat) (l : List α) : (blocks n k l).flatten = l.take (k * n) := by
  induction k generalizing l with
  | zero => simp [blocks]
  | succ k ih =>
    simp only [blocks, List.flatten_cons, ih]
    rw [Nat.succ_mul, Nat.add_comm (k * n) n, List.take_add]

theorem length_of_mem_blocks {α : Type} {n k : Nat} {l b : List α} (h : k * n ≤ l.length)
    (hb : b ∈ blocks n k l) : b.length = n := by
  induction k generalizing l with
  | zero => simp [blocks] at hb
  | succ k ih =>
    rw [Nat.succ_mul] at h
    simp only [blocks, List.mem_cons] at hb
    rcases hb with rfl | hb
    · simp; omega
    · exact ih (by simp; omega) hb

theorem length_of_mem_chunks {α : Type} {n : Nat} {l b : List α}
    (hb : b ∈ chunks n l) : b.length = n :=
  length_of_mem_blocks (Nat.div_mul_le_self ..) hb

theorem chunks_flatten {α : Type} {n : Nat} {l : List α} (h : n ∣ l.length) : (chunks n l).flatten = l := by
  simp only [chunks, flatten_blocks]
  rw [Nat.div_mul_cancel h]; simp

theorem chunks_append {α : Type} {n : Nat} (hn : 0 < n) {a : List α} (b : List α) (h : n ∣ a.length) :
    chunks n (a ++ b) = chunks n a ++ chunks n b := by
  obtain ⟨j, hj⟩ := h
  simp only [chunks, List.length_append, hj]
  rw [Nat.mul_add_div hn, Nat.mul_div_cancel_left _ hn]
  exact blocks_append _ _ _ _ _ (by rw [hj, Nat.mul_comm])

theorem chunks_single {α : Type} {n : Nat} (hn : 0 < n) {a : List α} (h : a.length = n) : chunks n a = [a] := by
  simp only [chunks, h, Nat.div_self hn, blocks]
  simp [← h]

theorem chunks_nil {α : Type} (n : Nat) : chunks n ([] : List α) = [] := by simp [chunks, blocks]

end Hashes
