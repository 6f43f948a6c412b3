import Verif.Model.Skein
import Verif.Spec.Skein
import Verif.Proof.Grid
import Verif.Proof.Words
import Verif.Proof.Md
import Verif.Proof.Shabal
/- Helper lemmas: the modelled Skein equals its specification, for every tweakable block cipher. -/
namespace Hashes
namespace Skein

def oct {n : Nat} (v : Arr 64 n) : Bytes := bytesOfWordsLE v.toList

theorem length_oct {n : Nat} (v : Arr 64 n) : (oct v).length = 8 * n := by rw [oct, length_bytesOfWordsLE, Arr.length_toList, Nat.mul_comm]

/-- `F` is the cipher `E` on byte strings. -/
def Octets {n : Nat} (E : Cipher n) (F : Bytes → BitVec 128 → Bytes → Bytes) : Prop :=
  ∀ k t x, oct (E k t x) = F (oct k) (t.2 ++ t.1) (oct x)

theorem bytes_xor64 (l l' : List W64) : bytesOfWordsLE (List.zipWith (· ^^^ ·) l l') =
    List.zipWith (· ^^^ ·) (bytesOfWordsLE l) (bytesOfWordsLE l') := by
  induction l generalizing l' with
  | nil => rfl
  | cons x l ih =>
    match l' with
    | [] => simp [bytesOfWordsLE]
    | y :: l' =>
      simp only [bytesOfWordsLE, List.zipWith_cons_cons, List.flatMap_cons] at ih ⊢
      rw [List.zipWith_append (by simp), ← ih]
      congr 1
      rw [leBytes_word, leBytes_word, leBytes_word, List.zipWith_map, List.zipWith_self]
      exact List.map_congr_left fun j _ => byteAt_xor x y j

theorem oct_xor {n : Nat} (a b : Arr 64 n) : oct (Arr.ofFn n fun i => a.get i ^^^ b.get i) = Spec.Skein.xor (oct b) (oct a) := by
  rw [oct, oct, oct, Spec.Skein.xor, ← bytes_xor64]
  congr 1
  conv => rhs; rw [← Arr.ofFn_get a, ← Arr.ofFn_get b]
  simp only [Arr.ofFn, Arr.toList, List.zipWith_map, List.zipWith_self]
  exact List.map_congr_left fun j _ => BitVec.xor_comm _ _

variable {n : Nat} {E : Cipher n} {F : Bytes → BitVec 128 → Bytes → Bytes}

theorem process_x (hE : Octets E F) (s : State n) (b : Bytes) (hb : b.length = 8 * n) (add : Nat) :
    oct (processBlock E s b add).x = Spec.Skein.xor (F (oct s.x) (s.t1 ++ (s.t0 + BitVec.ofNat 64 add)) b) b := by
  have h := Shabal.arr_canon (w := 64) (n := n) (by decide) b (by simpa using hb)
  simp only [processBlock]
  rw [oct_xor, hE]
  simp only [oct] at h ⊢
  rw [h]

/-- The second tweak word. -/
def t1Word (type : Nat) (first final : Bool) : W64 :=
  BitVec.ofNat 64 (type * 2 ^ 56 + (if first then 2 ^ 62 else 0) + if final then 2 ^ 63 else 0)

theorem tweak_eq (type pos : Nat) (first final : Bool) (h : pos < 2 ^ 64) :
    t1Word type first final ++ BitVec.ofNat 64 pos = Spec.Skein.tweak type pos first final := by
  apply BitVec.eq_of_toNat_eq
  rw [BitVec.toNat_append, ← Nat.shiftLeft_add_eq_or_of_lt (BitVec.isLt _), Nat.shiftLeft_eq, t1Word, Spec.Skein.tweak,
    BitVec.toNat_ofNat, BitVec.toNat_ofNat, BitVec.toNat_ofNat]
  cases first <;> cases final <;> simp only [if_true, if_false, Bool.false_eq_true] <;> omega

theorem nBlocks_eq {nb len : Nat} (h : 0 < nb) : Spec.Skein.nBlocks nb len = (len - 1) / nb + 1 := by
  rw [Spec.Skein.nBlocks]
  rcases Nat.eq_zero_or_pos len with h0 | h0
  · subst h0
    rw [Nat.div_eq_of_lt (by omega), Nat.div_eq_of_lt (by omega)]; rfl
  · rw [show len + nb - 1 = (len - 1) + nb by omega, Nat.add_div_right _ h]
    exact Nat.max_eq_right (Nat.le_add_left _ _)

/-- `UBI` of one block. -/
theorem ubi_single (F : Bytes → BitVec 128 → Bytes → Bytes) (nb : Nat) (G M : Bytes) (type : Nat) (h : M.length ≤ nb) (hnb : 0 < nb) :
    Spec.Skein.ubi F nb G M type = Spec.Skein.xor (F G (Spec.Skein.tweak type M.length true true) (M ++ List.replicate (nb - M.length) 0))
      (M ++ List.replicate (nb - M.length) 0) := by
  have hk : Spec.Skein.nBlocks nb M.length = 1 := by
    rw [nBlocks_eq hnb, Nat.div_eq_of_lt (by omega)]
  have hb : Spec.Skein.blockAt nb M 0 = M ++ List.replicate (nb - M.length) 0 := by
    rw [Spec.Skein.blockAt, Nat.zero_mul, List.drop_zero, List.take_of_length_le h]
  rw [Spec.Skein.ubi]
  simp only [hk, List.range_one, List.foldl_cons, List.foldl_nil, hb]
  rw [show min M.length ((0 + 1) * nb) = M.length by omega]
  rfl

/-- A fresh one-block state processes one padded string as `UBI` does. -/
theorem blank_ubi (hE : Octets E F) (t1 : W64) (type : Nat) (ht : t1 = t1Word type true true) (x : Arr 64 n) (M b : Bytes)
    (hM : M.length ≤ 8 * n) (hM64 : M.length < 2 ^ 64) (hn : 0 < n) (hb : b = M ++ List.replicate (8 * n - M.length) 0) :
    oct (processBlock E (blankState t1 x) b M.length).x = Spec.Skein.ubi F (8 * n) (oct x) M type := by
  rw [process_x hE _ _ (by rw [hb]; simp; omega), ubi_single F _ _ _ _ hM (by omega), blankState, ht]
  rw [show (0 : W64) + BitVec.ofNat 64 M.length = BitVec.ofNat 64 M.length from BitVec.zero_add _, tweak_eq _ _ _ _ hM64, hb]

theorem oct_zero (n : Nat) : oct (Arr.ofFn n fun _ => 0 : Arr 64 n) = List.replicate (8 * n) 0 := by
  rw [← leBytes_zero]
  induction n with
  | zero => rfl
  | succ k ih =>
    simp only [oct, bytesOfWordsLE, Arr.ofFn, Arr.toList] at ih ⊢
    rw [List.range_succ, List.map_append, List.flatMap_append, ih, Nat.mul_succ, leBytes_append]
    congr 1
    simp [leBytes_zero]

theorem init_x (hE : Octets E F) (hn : 4 ≤ n) (N : Nat) :
    oct (init E N).x = Spec.Skein.ubi F (8 * n) (List.replicate (8 * n) 0) (Spec.Skein.config N) 4 := by
  have h0 := oct_zero n
  have hl : (Spec.Skein.config N).length = CFG_STR_LEN := by simp [Spec.Skein.config, CFG_STR_LEN]
  have := blank_ubi (n := n) hE (T1_FLAG_FIRST ||| T1_BLK_TYPE_CFG ||| T1_FLAG_FINAL) 4 (by decide) (Arr.ofFn n fun _ => 0)
    (Spec.Skein.config N) (leBytes 8 SCHEMA_VER.toNat ++ leBytes 8 (N * 8) ++ leBytes 8 0 ++ List.replicate (8 * n - 24) 0)
    (by rw [hl]; simp only [CFG_STR_LEN]; omega) (by rw [hl]; decide) (by omega) ?_
  · rw [hl, h0] at this
    exact this
  · rw [hl]
    have e1 : leBytes 8 SCHEMA_VER.toNat = [0x53, 0x48, 0x41, 0x33] ++ leBytes 2 1 ++ leBytes 2 0 := by decide
    have e2 : List.replicate (8 * n - 24) (0 : Byte) = List.replicate 8 0 ++ List.replicate (8 * n - CFG_STR_LEN) 0 := by
      rw [List.replicate_append_replicate]; congr 1; simp only [CFG_STR_LEN]; omega
    rw [e1, e2, Spec.Skein.config, Nat.mul_comm N, leBytes_zero 8]
    rw [show List.replicate 16 (0 : Byte) = List.replicate 8 0 ++ List.replicate 8 0 from rfl]
    simp only [List.append_assoc]

/-- One step of message `UBI`. -/
def mstep (F : Bytes → BitVec 128 → Bytes → Bytes) (nb : Nat) (M : Bytes) (k : Nat) (H : Bytes) (i : Nat) : Bytes :=
  Spec.Skein.xor (F H (Spec.Skein.tweak 48 (min M.length ((i + 1) * nb)) (i == 0) (i == k - 1)) (Spec.Skein.blockAt nb M i)) (Spec.Skein.blockAt nb M i)

theorem updateBlocks_app (s : State n) (a b : List Bytes) : updateBlocks E s (a ++ b) = updateBlocks E (updateBlocks E s a) b := by
  simp [updateBlocks]

theorem blocks_succ (nb j : Nat) (m : Bytes) : blocks nb (j + 1) m = blocks nb j m ++ [(m.drop (j * nb)).take nb] := by
  rw [blocks_add]; rfl

theorem update_inv (hE : Octets E F) (s : State n) (h0 : s.t0 = 0) (h1 : s.t1 = t1Word 48 true false) (m : Bytes) (hm : m.length < 2 ^ 64)
    (k j : Nat) (hj : j ≤ k) (hk : k * (8 * n) ≤ m.length) :
    (updateBlocks E s (blocks (8 * n) j m)).t0 = BitVec.ofNat 64 (j * (8 * n)) ∧
    (updateBlocks E s (blocks (8 * n) j m)).t1 = t1Word 48 (j == 0) false ∧
    oct (updateBlocks E s (blocks (8 * n) j m)).x = (List.range j).foldl (mstep F (8 * n) m (k + 1)) (oct s.x) := by
  induction j with
  | zero => exact ⟨by rw [show updateBlocks E s (blocks (8 * n) 0 m) = s from rfl, h0, Nat.zero_mul]; rfl, h1, rfl⟩
  | succ j ih =>
    obtain ⟨i0, i1, i2⟩ := ih (by omega)
    have hle : (j + 1) * (8 * n) ≤ m.length := Nat.le_trans (Nat.mul_le_mul_right _ hj) hk
    have hsm : (j + 1) * (8 * n) = j * (8 * n) + 8 * n := Nat.succ_mul _ _
    have hl : ((m.drop (j * (8 * n))).take (8 * n)).length = 8 * n := by simp; omega
    rw [blocks_succ, updateBlocks_app]
    generalize updateBlocks E s (blocks (8 * n) j m) = s' at i0 i1 i2 ⊢
    have e : updateBlocks E s' [(m.drop (j * (8 * n))).take (8 * n)] = processBlock E s' ((m.drop (j * (8 * n))).take (8 * n)) (8 * n) := by
      rw [updateBlocks, List.foldl_cons, List.foldl_nil, hl]
    rw [e]
    refine ⟨?_, ?_, ?_⟩
    · rw [processBlock, i0, ← BitVec.ofNat_add, ← hsm]
    · rw [show (processBlock E s' ((m.drop (j * (8 * n))).take (8 * n)) (8 * n)).t1 = s'.t1 &&& ~~~T1_FLAG_FIRST from rfl, i1,
        show (j + 1 == 0) = false from rfl]
      cases (j == 0) <;> decide
    · rw [process_x hE _ _ hl, i0, i1, i2, List.range_succ, List.foldl_append, List.foldl_cons, List.foldl_nil, ← BitVec.ofNat_add, ← hsm,
        tweak_eq _ _ _ _ (by omega)]
      have hb : Spec.Skein.blockAt (8 * n) m j = (m.drop (j * (8 * n))).take (8 * n) := by
        rw [Spec.Skein.blockAt]; simp only [hl, Nat.sub_self, List.replicate_zero, List.append_nil]
      conv => rhs; rw [mstep, hb, show min m.length ((j + 1) * (8 * n)) = (j + 1) * (8 * n) by omega,
        show (j == k + 1 - 1) = false by simp; omega]

/-- The output loop. -/
theorem out_eq {sb : Nat} (hsb : 0 < sb) (h8 : 8 ∣ sb) (g : Nat → Bytes) (hg : ∀ i, (g i).length = sb) (out : Bytes) (f : Nat → Bytes → Bytes)
    (hf : ∀ i c, f i c = (g i).take (8 * (c.length / 8)) ++ c.drop (8 * (c.length / 8))) :
    ((List.range ((out.length + sb - 1) / sb)).flatMap fun i => f i ((out.drop (sb * i)).take sb)) =
      ((List.range ((out.length + sb - 1) / sb)).flatMap g).take (8 * (out.length / 8)) ++ out.drop (8 * (out.length / 8)) := by
  have hfull : ∀ k, k * sb ≤ out.length → ((List.range k).flatMap fun i => f i ((out.drop (sb * i)).take sb)) = (List.range k).flatMap g := by
    intro k hk
    have : ∀ i ∈ List.range k, f i ((out.drop (sb * i)).take sb) = g i := by
      intro i hi
      have hi : i < k := List.mem_range.1 hi
      have h1 : (i + 1) * sb ≤ k * sb := Nat.mul_le_mul_right _ hi
      have h2 : (i + 1) * sb = sb * i + sb := by rw [Nat.succ_mul, Nat.mul_comm]
      have hl : ((out.drop (sb * i)).take sb).length = sb := by simp; omega
      rw [hf, hl, Nat.mul_div_cancel' h8, List.take_of_length_le (by rw [hg]; exact Nat.le_refl _), List.drop_of_length_le (by rw [hl]; exact Nat.le_refl _), List.append_nil]
    rw [List.flatMap_def, List.flatMap_def, List.map_congr_left this]
  have hlen : ∀ k, ((List.range k).flatMap g).length = k * sb := by
    intro k
    induction k with
    | zero => simp
    | succ k ih => rw [List.range_succ, List.flatMap_append, List.length_append, ih, Nat.succ_mul]; simp [hg]
  rcases Nat.eq_zero_or_pos out.length with h0 | h0
  · have : out = [] := List.length_eq_zero_iff.1 h0
    subst this
    rw [show (([] : Bytes).length + sb - 1) / sb = 0 from Nat.div_eq_of_lt (by simp; omega)]
    rfl
  · obtain ⟨q, hq⟩ : ∃ q, (out.length - 1) / sb = q := ⟨_, rfl⟩
    have e : (out.length + sb - 1) / sb = q + 1 := by
      rw [show out.length + sb - 1 = (out.length - 1) + sb by omega, Nat.add_div_right _ hsb, hq]
    have hqle : q * sb ≤ out.length - 1 := by rw [← hq]; exact Nat.div_mul_le_self _ _
    have hqlt : out.length - 1 < q * sb + sb := by
      rw [← hq, ← Nat.succ_mul]
      exact Nat.lt_mul_of_div_lt (Nat.lt_succ_self _) hsb
    rw [e, List.range_succ, List.flatMap_append, List.flatMap_append, hfull q (by omega), List.flatMap_singleton, List.flatMap_singleton, hf]
    have hl : ((out.drop (sb * q)).take sb).length = out.length - q * sb := by simp [Nat.mul_comm sb]; omega
    have hd : (out.drop (sb * q)).take sb = out.drop (q * sb) := by
      rw [Nat.mul_comm, List.take_of_length_le (by simp; omega)]
    have h8q : 8 * ((out.length - q * sb) / 8) + q * sb = 8 * (out.length / 8) := by
      obtain ⟨c, rfl⟩ := h8
      rw [Nat.mul_left_comm] at hqle ⊢
      omega
    rw [hl, hd, List.take_append, hlen, List.drop_drop, List.append_assoc]
    rw [show 8 * (out.length / 8) - q * sb = 8 * ((out.length - q * sb) / 8) by omega, show q * sb + 8 * ((out.length - q * sb) / 8) = 8 * (out.length / 8) by omega,
      List.take_of_length_le (l := List.flatMap g (List.range q)) (by rw [hlen]; omega)]

theorem lawful (N : Nat) (hn : 0 < n) : (core E N).Lawful (fun _ => True) where
  bs_pos := by simp only [core]; omega
  nil := fun _ => rfl
  app := fun s a b => by simp [core, updateBlocks]
  inv_init := trivial
  inv_update := fun _ _ _ _ => trivial
  reset_eq := fun _ _ => rfl
  fin_congr := fun s b b' h h' hc => by
    simp only [core] at h h' ⊢
    simp only [finalizeInto]
    have hp := pos_congr h h' hc
    have : b.padWithZeros (8 * n) = b'.padWithZeros (8 * n) := by
      simp only [BlockBuffer.content] at hc
      simp only [BlockBuffer.padWithZeros]
      rw [hc, hp]
    rw [this, hp]

/-- The digest: as specified up to the last whole 8 bytes, zero after them. -/
theorem digest_eq (hE : Octets E F) (hn : 4 ≤ n) (N : Nat) (m : Bytes) (hm : m.length < 2 ^ 64) :
    (core E N).digest m = (Spec.Skein.hash F (8 * n) N m).take (8 * (N / 8)) ++ List.replicate (N % 8) 0 := by
  obtain ⟨b, h1, h2, h3, h4⟩ := Core.digest_unfold (lawful (E := E) N (by omega)) m
  rw [h4]
  simp only [core, nFull] at h1 h2 h3 ⊢
  obtain ⟨q, hq⟩ : ∃ q, (m.length - 1) / (8 * n) = q := ⟨_, rfl⟩
  rw [hq] at h2 h3 ⊢
  have hqle : q * (8 * n) ≤ m.length - 1 := by rw [← hq]; exact Nat.div_mul_le_self _ _
  have hqlt : m.length - 1 < q * (8 * n) + 8 * n := by
    rw [← hq, ← Nat.succ_mul]
    exact Nat.lt_mul_of_div_lt (Nat.lt_succ_self _) (by omega)
  obtain ⟨u0, u1, u2⟩ := update_inv hE (init E N) rfl (show T1_FLAG_FIRST ||| T1_BLK_TYPE_MSG = _ by decide) m hm q q (Nat.le_refl _) (by omega)
  generalize updateBlocks E (init E N) (blocks (8 * n) q m) = s at u0 u1 u2 ⊢
  have hpad : (b.padWithZeros (8 * n)).1 = Spec.Skein.blockAt (8 * n) m q := by
    simp only [BlockBuffer.padWithZeros, BlockBuffer.content] at h2 ⊢
    rw [h2, h3, Spec.Skein.blockAt, List.take_of_length_le (by simp; omega)]
    simp
  have hbl : (Spec.Skein.blockAt (8 * n) m q).length = 8 * n := by simp [Spec.Skein.blockAt]; omega
  have hmsg : oct (processBlock E { s with t1 := s.t1 ||| T1_FLAG_FINAL } (b.padWithZeros (8 * n)).1 b.pos).x =
      Spec.Skein.ubi F (8 * n) (Spec.Skein.ubi F (8 * n) (List.replicate (8 * n) 0) (Spec.Skein.config N) 4) m 48 := by
    rw [hpad, process_x hE _ _ hbl, Spec.Skein.ubi, nBlocks_eq (by omega), hq]
    simp only
    rw [List.range_succ, List.foldl_append, List.foldl_cons, List.foldl_nil, u0, u1, u2, init_x hE hn]
    have et : (t1Word 48 (q == 0) false ||| T1_FLAG_FINAL) = t1Word 48 (q == 0) true := by cases (q == 0) <;> decide
    rw [et, ← BitVec.ofNat_add, h3, show q * (8 * n) + (m.length - q * (8 * n)) = m.length by omega, tweak_eq _ _ _ _ hm]
    have hmin : min m.length ((q + 1) * (8 * n)) = m.length := by rw [Nat.succ_mul]; omega
    rw [hmin, show (q == q + 1 - 1) = true by simp]
    rfl
  rw [finalizeInto]
  generalize (processBlock E { s with t1 := s.t1 ||| T1_FLAG_FINAL } (b.padWithZeros (8 * n)).1 b.pos).x = x at hmsg ⊢
  rw [out_eq (sb := 8 * n) (by omega) (Nat.dvd_mul_right _ _) (fun i => oct (processBlock E (blankState (T1_FLAG_FIRST ||| T1_BLK_TYPE_OUT ||| T1_FLAG_FINAL) x)
    (leBytes 8 i ++ List.replicate (8 * n - 8) 0) 8).x) (fun _ => length_oct _) _ (outChunk E x) (fun i c => rfl)]
  rw [Spec.Skein.hash, Spec.Skein.output, ← hmsg, List.length_replicate, List.drop_replicate, List.take_take,
    show min (8 * (N / 8)) N = 8 * (N / 8) by omega, show N - 8 * (N / 8) = N % 8 by omega]
  congr 3
  funext i
  have := blank_ubi (n := n) hE (T1_FLAG_FIRST ||| T1_BLK_TYPE_OUT ||| T1_FLAG_FINAL) 63 (by decide) x
    (leBytes 8 i) (leBytes 8 i ++ List.replicate (8 * n - 8) 0) (by simp; omega) (by simp) (by omega) (by simp)
  rw [← this]; simp

end Skein
end Hashes
