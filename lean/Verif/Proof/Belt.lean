import Verif.Model.Belt
import Verif.Spec.Belt
import Verif.Proof.Grid
import Verif.Proof.Words
import Verif.Proof.Md
/- Helper lemmas: the modelled BelT hash equals the standard, for every block cipher. -/
namespace Hashes
namespace Belt

/-- Octets of four and eight words. -/
def b4 (v : V4 W32) : Bytes := bytesOfWordsLE v.toList
def b8 (v : V8 W32) : Bytes := bytesOfWordsLE v.toList
/-- Words of 16 and 32 octets. -/
def w4 (b : Bytes) : V4 W32 := V4.ofFn (wordLE 32 b)
def w8 (b : Bytes) : V8 W32 := V8.ofFn (wordLE 32 b)

/-- The cipher on octet strings. -/
def octets (E : Cipher) (k x : Bytes) : Bytes := b4 (E (w4 x) (w8 k))

theorem length_b4 (v : V4 W32) : (b4 v).length = 16 := by rw [b4, length_bytesOfWordsLE]; rfl
theorem length_b8 (v : V8 W32) : (b8 v).length = 32 := by rw [b8, length_bytesOfWordsLE]; rfl

theorem w4_b4 (v : V4 W32) : w4 (b4 v) = v := by
  have h : ∀ i (hi : i < 4), wordLE 32 (b4 v) i = v.toList.getD i 0 := fun i hi => by
    have := wordLE_append (by decide) v.toList [] (0 : W32) (i := i) (by simpa [V4.toList] using hi)
    rwa [List.append_nil] at this
  simp only [w4, V4.ofFn, h 0 (by decide), h 1 (by decide), h 2 (by decide), h 3 (by decide), V4.toList, List.getD_cons_zero,
    List.getD_cons_succ]

theorem w8_b8 (v : V8 W32) : w8 (b8 v) = v := by
  have h : ∀ i (hi : i < 8), wordLE 32 (b8 v) i = v.toList.getD i 0 := fun i hi => by
    have := wordLE_append (by decide) v.toList [] (0 : W32) (i := i) (by simpa [V8.toList] using hi)
    rwa [List.append_nil] at this
  simp only [w8, V8.ofFn, h 0 (by decide), h 1 (by decide), h 2 (by decide), h 3 (by decide), h 4 (by decide), h 5 (by decide),
    h 6 (by decide), h 7 (by decide), V8.toList, List.getD_cons_zero, List.getD_cons_succ]

theorem bytes_xor (l l' : List W32) : bytesOfWordsLE (List.zipWith (· ^^^ ·) l l') =
    List.zipWith (· ^^^ ·) (bytesOfWordsLE l) (bytesOfWordsLE l') := by
  induction l generalizing l' with
  | nil => rfl
  | cons x l ih =>
    match l' with
    | [] => simp [bytesOfWordsLE]
    | y :: l' =>
      simp only [bytesOfWordsLE, List.zipWith_cons_cons, List.flatMap_cons] at ih ⊢
      rw [List.zipWith_append (by simp), ← ih]
      congr 1
      rw [leBytes_word, leBytes_word, leBytes_word, List.zipWith_map, List.zipWith_self]
      exact List.map_congr_left fun j _ => byteAt_xor x y j

theorem bytes_not (l : List W32) : bytesOfWordsLE (l.map fun v => ~~~v) = (bytesOfWordsLE l).map fun v => ~~~v := by
  induction l with
  | nil => rfl
  | cons x l ih =>
    simp only [bytesOfWordsLE, List.map_cons, List.flatMap_cons, List.map_append] at ih ⊢
    rw [← ih]
    congr 1
    rw [leBytes_word, leBytes_word, List.map_map]
    apply List.map_congr_left
    intro j hj
    have hj : j < 4 := List.mem_range.1 hj
    apply BitVec.eq_of_getLsbD_eq
    intro i hi
    have : 8 * j + i < 32 := by omega
    simp [byteAt, hi, this]

theorem b4_xor (a b : V4 W32) : b4 (xor a b) = Spec.Belt.xor (b4 a) (b4 b) := bytes_xor a.toList b.toList
theorem b4_not (a : V4 W32) : b4 (a.map fun v => ~~~v) = Spec.Belt.not (b4 a) := bytes_not a.toList
theorem b8_concat (a b : V4 W32) : b8 (concat a b) = b4 a ++ b4 b := by
  simp only [b8, b4, bytesOfWordsLE, concat, V4.toList, V8.toList, List.flatMap_cons, List.flatMap_nil, List.append_nil, List.append_assoc]

theorem octets_eq (E : Cipher) (x : V4 W32) (k : V8 W32) : b4 (E x k) = octets E (b8 k) (b4 x) := by
  rw [octets, w4_b4, w8_b8]

/-- `F` is the cipher `E` on octet strings. -/
def Octets (E : Cipher) (F : Bytes → Bytes → Bytes) : Prop := ∀ x k, b4 (E x k) = F (b8 k) (b4 x)

/-- Halves of the chaining value. -/
def lo (h : V8 W32) : V4 W32 := ⟨h.x0, h.x1, h.x2, h.x3⟩
def hi (h : V8 W32) : V4 W32 := ⟨h.x4, h.x5, h.x6, h.x7⟩

theorem b8_halves (h : V8 W32) : (b8 h).take 16 = b4 (lo h) ∧ (b8 h).drop 16 = b4 (hi h) := by
  have : b8 h = b4 (lo h) ++ b4 (hi h) := b8_concat (lo h) (hi h)
  rw [this]
  exact ⟨List.take_left' (length_b4 _), List.drop_left' (length_b4 _)⟩

theorem compress_eq {E : Cipher} {F : Bytes → Bytes → Bytes} (hE : Octets E F) (x1 x2 : V4 W32) (h : V8 W32) :
    (b4 (beltCompress E x1 x2 h).1, b8 (beltCompress E x1 x2 h).2) =
      Spec.Belt.compress F (b4 x1) (b4 x2) (b4 (lo h)) (b4 (hi h)) := by
  simp only [beltCompress, Spec.Belt.compress, b4_xor, b8_concat, hE _, b4_not, lo, hi]

theorem block_words (b : Bytes) (hb : b.length = 32) :
    b4 ⟨getU32 b 0, getU32 b 1, getU32 b 2, getU32 b 3⟩ = b.take 16 ∧
    b4 ⟨getU32 b 4, getU32 b 5, getU32 b 6, getU32 b 7⟩ = b.drop 16 := by
  have h : b8 (w8 b) = b := by
    rw [b8, w8, show (V8.ofFn (wordLE 32 b)).toList = (List.range 8).map (wordLE 32 b) from rfl,
      bytesOfWordsLE_range (by decide) _ _ (by omega), List.take_of_length_le (by omega)]
  obtain ⟨h1, h2⟩ := b8_halves (w8 b)
  rw [h] at h1 h2
  exact ⟨h1.symm, h2.symm⟩

/-- One block step of the standard. -/
def sstep (F : Bytes → Bytes → Bytes) (sh : Bytes × Bytes) (x : Bytes) : Bytes × Bytes :=
  let ty := Spec.Belt.compress F (x.take 16) (x.drop 16) (sh.2.take 16) (sh.2.drop 16)
  (Spec.Belt.xor sh.1 ty.1, ty.2)

/-- State of the standard. -/
def abs (st : State) : Bytes × Bytes := (b4 st.s, b8 st.h)

theorem abs_compress {E : Cipher} {F : Bytes → Bytes → Bytes} (hE : Octets E F) (st : State) (b : Bytes) (hb : b.length = 32) :
    abs (compressBlock E st b) = sstep F (abs st) b := by
  obtain ⟨h1, h2⟩ := block_words b hb
  obtain ⟨h3, h4⟩ := b8_halves st.h
  have := compress_eq hE ⟨getU32 b 0, getU32 b 1, getU32 b 2, getU32 b 3⟩ ⟨getU32 b 4, getU32 b 5, getU32 b 6, getU32 b 7⟩ st.h
  simp only [abs, compressBlock, sstep, h3, h4]
  rw [← h1, ← h2, ← this, b4_xor]

theorem abs_foldl {E : Cipher} {F : Bytes → Bytes → Bytes} (hE : Octets E F) (l : List Bytes) (hl : ∀ b ∈ l, b.length = 32) (st : State) :
    abs (l.foldl (compressBlock E) st) = l.foldl (sstep F) (abs st) := by
  induction l generalizing st with
  | nil => rfl
  | cons x l ih =>
    rw [List.foldl_cons, List.foldl_cons, ih (fun b hb => hl b (List.mem_cons_of_mem _ hb)),
      abs_compress hE _ _ (hl x List.mem_cons_self)]

theorem foldl_r (E : Cipher) (l : List Bytes) (st : State) : (l.foldl (compressBlock E) st).r = st.r := by
  induction l generalizing st with
  | nil => rfl
  | cons x l ih => rw [List.foldl_cons, ih]; rfl

theorem encode_eq (r : W128) : b4 (encodeR r) = leBytes 16 r.toNat := by
  have hmask : (1#128 <<< 32) - 1#128 = 0xFFFFFFFF := by decide
  have e : encodeR r = w4 (leBytes 16 r.toNat) := by
    have hw : ∀ k < 4, wordLE 32 (leBytes 16 r.toNat) k = BitVec.ofNat 32 (r.toNat / 2 ^ (32 * k)) := by
      intro k hk
      rw [wordLE, show 32 / 8 = 4 from rfl]
      have h1 : leBytes 16 r.toNat = leBytes (4 * k) r.toNat ++ (leBytes 4 (r.toNat / 256 ^ (4 * k)) ++
          leBytes (12 - 4 * k) (r.toNat / 256 ^ (4 * k) / 256 ^ 4)) := by
        rw [← leBytes_append, ← leBytes_append]; congr 1; omega
      rw [h1, List.drop_left' (by simp), List.take_left' (by simp), ofLE_leBytes]
      apply BitVec.eq_of_toNat_eq
      simp only [BitVec.toNat_ofNat, show (256 : Nat) = 2 ^ 8 from rfl, ← Nat.pow_mul, show 8 * (4 * k) = 32 * k by omega,
        show 8 * 4 = 32 from rfl, Nat.mod_mod]
    have hx : ∀ k < 4, ((r >>> (32 * k)) &&& (0xFFFFFFFF : W128)).truncate 32 = BitVec.ofNat 32 (r.toNat / 2 ^ (32 * k)) := by
      intro k hk
      apply BitVec.eq_of_toNat_eq
      rw [BitVec.truncate_eq_setWidth, BitVec.toNat_setWidth, BitVec.toNat_and, BitVec.toNat_ushiftRight, BitVec.toNat_ofNat,
        show (0xFFFFFFFF : W128).toNat = 2 ^ 32 - 1 from rfl, Nat.and_two_pow_sub_one_eq_mod, Nat.mod_mod, Nat.shiftRight_eq_div_pow]
    have h0 := hx 0 (by decide)
    rw [show r >>> (32 * 0) = r by rw [Nat.mul_zero]; simp] at h0
    simp only [encodeR, hmask, w4, V4.ofFn, hw 0 (by decide), hw 1 (by decide), hw 2 (by decide), hw 3 (by decide),
      ← hx 1 (by decide), ← hx 2 (by decide), ← hx 3 (by decide), ← h0]
  rw [e, b4, w4, show (V4.ofFn (wordLE 32 (leBytes 16 r.toNat))).toList = (List.range 4).map (wordLE 32 (leBytes 16 r.toNat)) from rfl,
    bytesOfWordsLE_range (by decide) _ _ (by simp), List.take_of_length_le (by simp)]

/-! ### Interface laws -/

theorem lawful (E : Cipher) : (belt E).Lawful (fun _ => True) where
  bs_pos := (by decide : 0 < 32)
  nil := fun s => by simp [belt, updateBlocks]
  app := fun s x y => by
    have key : ∀ (l : List Bytes) (a : W128) (st : State), l.foldl (compressBlock E) ⟨a, st.s, st.h⟩ =
        ⟨a, (l.foldl (compressBlock E) st).s, (l.foldl (compressBlock E) st).h⟩ := by
      intro l
      induction l with
      | nil => intro a st; rfl
      | cons x l ih => intro a st; rw [List.foldl_cons, List.foldl_cons]; exact ih a (compressBlock E st x)
    simp only [belt, updateBlocks, List.foldl_append, List.length_append, BitVec.ofNat_add]
    rw [key x (s.r + (BitVec.ofNat 128 x.length + BitVec.ofNat 128 y.length)) s, foldl_r,
      key x (s.r + BitVec.ofNat 128 x.length) s, BitVec.add_assoc]
  inv_init := trivial
  inv_update := fun _ _ _ _ => trivial
  reset_eq := fun _ _ => rfl
  fin_congr := fun s b b' h h' hc => by
    simp only [belt, finalize, BlockBuffer.padWithZeros]
    have := pos_congr h h' hc
    simp only [BlockBuffer.content] at hc
    rw [this] at hc ⊢
    rw [hc]

theorem digest_eq {E : Cipher} {F : Bytes → Bytes → Bytes} (hE : Octets E F) (m : Bytes) : (belt E).digest m = Spec.Belt.hash F m := by
  obtain ⟨b, h1, h2, h3, h4⟩ := Core.digest_eager (lawful E) rfl m
  rw [h4]
  simp only [belt] at h1 h2 h3 ⊢
  have hblk : ∀ b ∈ blocks 32 (m.length / 32) m, b.length = 32 := fun b hb => length_of_mem_blocks (by omega) hb
  have hlt : m.length % 32 < 32 := Nat.mod_lt _ (by decide)
  simp only [finalize, BlockBuffer.padWithZeros, h3]
  have hc : b.data.take (m.length % 32) = m.drop (m.length / 32 * 32) := by rw [← h3]; exact h2
  rw [hc]
  have ha0 : abs (updateBlocks E init (blocks 32 (m.length / 32) m)) =
      (blocks 32 (m.length / 32) m).foldl (sstep F) (List.replicate 16 0, Spec.Belt.iv) := by
    rw [updateBlocks, abs_foldl hE _ hblk]
    have : ∀ r, abs ⟨r, init.s, init.h⟩ = (List.replicate 16 0, Spec.Belt.iv) := fun r => by
      show (b4 init.s, b8 init.h) = _
      decide +kernel
    rw [this]
  have hr0 : (updateBlocks E init (blocks 32 (m.length / 32) m)).r = BitVec.ofNat 128 (m.length / 32) := by
    rw [updateBlocks, foldl_r, length_blocks]
    exact BitVec.zero_add _
  generalize updateBlocks E init (blocks 32 (m.length / 32) m) = st at ha0 hr0 ⊢
  have key : ∀ st' : State, st'.r = BitVec.ofNat 128 (m.length / 32) →
      abs st' = (chunks 32 (Spec.Belt.pad m)).foldl (sstep F) (List.replicate 16 0, Spec.Belt.iv) →
      bytesOfWordsLE (beltCompress E (encodeR (8 * (32 * st'.r + BitVec.ofNat 128 (m.length % 32)))) st'.s st'.h).2.toList =
        Spec.Belt.hash F m := by
    intro st' hr' ha'
    have hh : Spec.Belt.hash F m = (Spec.Belt.compress F (leBytes 16 (8 * m.length)) (abs st').1
        ((abs st').2.take 16) ((abs st').2.drop 16)).2 := by
      rw [ha']; rfl
    obtain ⟨e1, e2⟩ := b8_halves st'.h
    rw [hh]
    simp only [abs, e1, e2]
    have hl : leBytes 16 (8 * m.length) = b4 (encodeR (8 * (32 * st'.r + BitVec.ofNat 128 (m.length % 32)))) := by
      rw [encode_eq, hr', show (8 : W128) = BitVec.ofNat 128 8 from rfl, show (32 : W128) = BitVec.ofNat 128 32 from rfl,
        ← BitVec.ofNat_mul, ← BitVec.ofNat_add, ← BitVec.ofNat_mul, leBytes_counter (by decide)]
      congr 1; omega
    rw [hl, ← compress_eq hE]
    rfl
  by_cases h0 : m.length % 32 = 0
  · rw [if_neg (by omega)]
    refine key st hr0 ?_
    rw [ha0, Spec.Belt.pad, h0]
    simp only [Nat.sub_zero, Nat.mod_self, List.replicate_zero, List.append_nil]
    rfl
  · rw [if_pos h0]
    have hlen : (m.drop (m.length / 32 * 32) ++ List.replicate (32 - m.length % 32) (0 : Byte)).length = 32 := by
      simp; omega
    refine key _ hr0 ?_
    rw [abs_compress hE st _ hlen, ha0, Spec.Belt.pad, Nat.mod_eq_of_lt (show 32 - m.length % 32 < 32 by omega),
      chunks_tail (by decide), List.foldl_append]
    have : chunks 32 (m.drop (m.length / 32 * 32) ++ List.replicate (32 - m.length % 32) (0 : Byte)) =
        [m.drop (m.length / 32 * 32) ++ List.replicate (32 - m.length % 32) 0] := by
      rw [chunks, hlen]
      show [_] = _
      rw [List.take_of_length_le (by omega)]
    rw [this]
    rfl

end Belt
end Hashes
