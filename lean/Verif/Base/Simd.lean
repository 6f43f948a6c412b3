import Verif.Base.Vec
import Verif.Proof.Words
/-
128-bit vector registers (`__m128i`, `uint32x4_t`/`uint64x2_t`, `v128`), seen as lanes of any width.
Lane 0 holds the least significant bits; byte 0 is at the lowest address when a register is loaded from or
stored to memory (all modelled targets are little endian).
-/
namespace Hashes

/-- A 128-bit vector register. -/
abbrev V128 := BitVec 128

namespace Simd

/-- Lane `i` of width `w`: bits `w*i .. w*i + w - 1`. -/
def lane (w i : Nat) (x : V128) : BitVec w := x.extractLsb' (w * i) w

/-- The register whose first `n` lanes (of width `w`) are `f 0, .., f (n-1)`. -/
def packN (w : Nat) (f : Nat → BitVec w) : Nat → V128
  | 0 => 0
  | n + 1 => packN w f n ||| (f n).setWidth 128 <<< (w * n)

/-- The register whose lane `i` (of width `w`) is `f i`. -/
def pack (w : Nat) (f : Nat → BitVec w) : V128 := packN w f (128 / w)

/-- Lane-wise unary operation. -/
def map (w : Nat) (f : BitVec w → BitVec w) (a : V128) : V128 := pack w fun i => f (lane w i a)
/-- Lane-wise binary operation. -/
def zip (w : Nat) (f : BitVec w → BitVec w → BitVec w) (a b : V128) : V128 :=
  pack w fun i => f (lane w i a) (lane w i b)

/-- The 16 bytes of `mem` starting at `off`, as a register (unaligned load). -/
def load (mem : Bytes) (off : Nat) : V128 := pack 8 fun i => mem.getD (off + i) 0
/-- The 16 bytes of a register in memory order (store). -/
def store (x : V128) : Bytes := (List.range 16).map fun i => lane 8 i x

/-! ### Lemmas -/

theorem getLsbD_packN (w : Nat) (f : Nat → BitVec w) (n k : Nat) :
    (packN w f n).getLsbD k = (decide (k < 128) && decide (k < w * n) && (f (k / w)).getLsbD (k % w)) := by
  induction n with
  | zero => simp [packN]
  | succ n ih =>
    rw [packN, BitVec.getLsbD_or, ih, BitVec.getLsbD_shiftLeft, BitVec.getLsbD_setWidth, Nat.mul_succ]
    by_cases h : k < 128
    · by_cases h1 : k < w * n
      · simp [h, h1, show k < w * n + w by omega]
      · by_cases h2 : k < w * n + w
        · obtain ⟨j, rfl⟩ : ∃ j, k = w * n + j := ⟨k - w * n, by omega⟩
          have hj : j < w := by omega
          rw [Nat.mul_add_div (by omega), Nat.mul_add_mod, Nat.div_eq_of_lt hj, Nat.mod_eq_of_lt hj]
          rw [decide_eq_false h1]
          simp [h, hj, show j < 128 by omega]
        · simp [h1, h2, BitVec.getLsbD_of_ge (f n) (k - w * n) (by omega)]
    · simp [h]

theorem getLsbD_pack {w : Nat} (hw : w ∣ 128) (f : Nat → BitVec w) (k : Nat) :
    (pack w f).getLsbD k = (decide (k < 128) && (f (k / w)).getLsbD (k % w)) := by
  rw [pack, getLsbD_packN, Nat.mul_div_cancel' hw]
  simp

theorem getLsbD_lane (w i : Nat) (x : V128) (k : Nat) :
    (lane w i x).getLsbD k = (decide (k < w) && x.getLsbD (w * i + k)) := by
  simp [lane, BitVec.getLsbD_extractLsb']

theorem lane_pack {w : Nat} (f : Nat → BitVec w) {i : Nat} (hw : w ∣ 128) (h : w * (i + 1) ≤ 128) :
    lane w i (pack w f) = f i := by
  apply BitVec.eq_of_getLsbD_eq
  intro k hk
  have h2 : w * i + k < 128 := by rw [Nat.mul_add] at h; omega
  rw [getLsbD_lane, getLsbD_pack hw, Nat.mul_add_div (by omega), Nat.mul_add_mod, Nat.div_eq_of_lt hk,
    Nat.mod_eq_of_lt hk]
  simp [hk, h2]

/-- A register is determined by its lanes. -/
theorem pack_lane {w : Nat} (hw : w ∣ 128) (x : V128) : pack w (fun i => lane w i x) = x := by
  have hpos : 0 < w := Nat.pos_of_dvd_of_pos hw (by decide)
  apply BitVec.eq_of_getLsbD_eq
  intro k hk
  rw [getLsbD_pack hw, getLsbD_lane, Nat.div_add_mod]
  simp [hk, Nat.mod_lt k hpos]

theorem pack_congr {w : Nat} {f g : Nat → BitVec w} (hw : w ∣ 128) (h : ∀ i, w * i < 128 → f i = g i) :
    pack w f = pack w g := by
  apply BitVec.eq_of_getLsbD_eq
  intro k hk
  rw [getLsbD_pack hw, getLsbD_pack hw, h]
  calc w * (k / w) ≤ k := Nat.mul_div_le k w
    _ < 128 := hk

theorem lane_map {w : Nat} (f : BitVec w → BitVec w) (a : V128) {i : Nat} (hw : w ∣ 128) (h : w * (i + 1) ≤ 128) :
    lane w i (map w f a) = f (lane w i a) := lane_pack _ hw h
theorem lane_zip {w : Nat} (f : BitVec w → BitVec w → BitVec w) (a b : V128) {i : Nat} (hw : w ∣ 128) (h : w * (i + 1) ≤ 128) :
    lane w i (zip w f a b) = f (lane w i a) (lane w i b) := lane_pack _ hw h

/-! ### Bits of byte strings -/

theorem testBit_ofLE (l : Bytes) (k : Nat) : (ofLE l).testBit k = (l.getD (k / 8) 0).getLsbD (k % 8) := by
  induction l generalizing k with
  | nil => simp [ofLE]
  | cons b l ih =>
    rw [ofLE, Nat.add_comm, show (256 : Nat) = 2 ^ 8 from rfl, Nat.testBit_two_pow_mul_add _ b.isLt]
    by_cases h : k < 8
    · rw [if_pos h, Nat.div_eq_of_lt h, Nat.mod_eq_of_lt h]; rfl
    · rw [if_neg h, ih]
      obtain ⟨j, rfl⟩ : ∃ j, k = j + 8 := ⟨k - 8, by omega⟩
      rw [Nat.add_sub_cancel, Nat.add_div_right _ (by decide), Nat.add_mod_right]
      rfl

theorem getLsbD_wordLE {w : Nat} (l : Bytes) (i k : Nat) (hw : 8 ∣ w) :
    (wordLE w l i).getLsbD k = (decide (k < w) && (l.getD (w / 8 * i + k / 8) 0).getLsbD (k % 8)) := by
  rw [wordLE, BitVec.getLsbD_ofNat, testBit_ofLE]
  by_cases h : k < w
  · obtain ⟨m, rfl⟩ := hw
    simp only [List.getD_eq_getElem?_getD]
    rw [List.getElem?_take_of_lt (by omega), List.getElem?_drop]
  · simp [h]

theorem getLsbD_wordBE {w : Nat} (l : Bytes) (i k : Nat) (hw : 8 ∣ w) (hl : w / 8 * (i + 1) ≤ l.length) :
    (wordBE w l i).getLsbD k =
      (decide (k < w) && (l.getD (w / 8 * i + (w / 8 - 1 - k / 8)) 0).getLsbD (k % 8)) := by
  rw [wordBE, BitVec.getLsbD_ofNat, ofBE, testBit_ofLE]
  by_cases h : k < w
  · obtain ⟨m, rfl⟩ := hw
    rw [Nat.mul_div_cancel_left _ (by decide)] at hl ⊢
    rw [Nat.mul_add, Nat.mul_one] at hl
    have hlen : ((l.drop (m * i)).take m).length = m := by simp; omega
    simp only [List.getD_eq_getElem?_getD]
    rw [List.getElem?_reverse (by omega), hlen, List.getElem?_take_of_lt (by omega), List.getElem?_drop]
  · simp [h]

theorem lane_load32 (mem : Bytes) (i j : Nat) (hi : i < 4) : lane 32 i (load mem (16 * j)) = wordLE 32 mem (4 * j + i) := by
  apply BitVec.eq_of_getLsbD_eq
  intro k hk
  rw [getLsbD_lane, load, getLsbD_pack (by decide), getLsbD_wordLE _ _ _ (by decide)]
  rw [show (32 * i + k) / 8 = 4 * i + k / 8 by omega, show (32 * i + k) % 8 = k % 8 by omega,
    show 16 * j + (4 * i + k / 8) = 32 / 8 * (4 * j + i) + k / 8 by omega]
  simp [hk, show 32 * i + k < 128 by omega]

theorem lane_load64 (mem : Bytes) (i j : Nat) (hi : i < 2) : lane 64 i (load mem (16 * j)) = wordLE 64 mem (2 * j + i) := by
  apply BitVec.eq_of_getLsbD_eq
  intro k hk
  rw [getLsbD_lane, load, getLsbD_pack (by decide), getLsbD_wordLE _ _ _ (by decide)]
  rw [show (64 * i + k) / 8 = 8 * i + k / 8 by omega, show (64 * i + k) % 8 = k % 8 by omega,
    show 16 * j + (8 * i + k / 8) = 64 / 8 * (2 * j + i) + k / 8 by omega]
  simp [hk, show 64 * i + k < 128 by omega]

/-- The register with the given four 32-bit lanes. -/
def q (a b c d : W32) : V128 := pack 32 fun i => (⟨a, b, c, d⟩ : V4 W32).get i
/-- The register with the given two 64-bit lanes. -/
def d (a b : W64) : V128 := pack 64 fun i => if i = 0 then a else b

theorem lane32_q (a b c e : W32) : lane 32 0 (q a b c e) = a ∧ lane 32 1 (q a b c e) = b ∧
    lane 32 2 (q a b c e) = c ∧ lane 32 3 (q a b c e) = e :=
  ⟨lane_pack _ (by decide) (by decide), lane_pack _ (by decide) (by decide), lane_pack _ (by decide) (by decide), lane_pack _ (by decide) (by decide)⟩

@[simp] theorem lane32_q0 (a b c e : W32) : lane 32 0 (q a b c e) = a := lane_pack _ (by decide) (by decide)
@[simp] theorem lane32_q1 (a b c e : W32) : lane 32 1 (q a b c e) = b := lane_pack _ (by decide) (by decide)
@[simp] theorem lane32_q2 (a b c e : W32) : lane 32 2 (q a b c e) = c := lane_pack _ (by decide) (by decide)
@[simp] theorem lane32_q3 (a b c e : W32) : lane 32 3 (q a b c e) = e := lane_pack _ (by decide) (by decide)
@[simp] theorem lane64_d0 (a b : W64) : lane 64 0 (d a b) = a := lane_pack _ (by decide) (by decide)
@[simp] theorem lane64_d1 (a b : W64) : lane 64 1 (d a b) = b := lane_pack _ (by decide) (by decide)

/-- Two registers with the same 32-bit lanes are equal. -/
theorem ext32 {x : V128} {a b c e : W32} (h0 : lane 32 0 x = a) (h1 : lane 32 1 x = b) (h2 : lane 32 2 x = c)
    (h3 : lane 32 3 x = e) : x = q a b c e := by
  rw [← pack_lane (w := 32) (by decide) x, q]
  apply pack_congr (by decide)
  intro i hi
  have : i < 4 := by omega
  match i, this with
  | 0, _ => exact h0
  | 1, _ => exact h1
  | 2, _ => exact h2
  | 3, _ => exact h3

/-- Two registers with the same 64-bit lanes are equal. -/
theorem ext64 {x : V128} {a b : W64} (h0 : lane 64 0 x = a) (h1 : lane 64 1 x = b) : x = d a b := by
  rw [← pack_lane (w := 64) (by decide) x, d]
  apply pack_congr (by decide)
  intro i hi
  have : i < 2 := by omega
  match i, this with
  | 0, _ => exact h0
  | 1, _ => exact h1

theorem pack32_eq (f : Nat → W32) : pack 32 f = q (f 0) (f 1) (f 2) (f 3) :=
  ext32 (lane_pack _ (by decide) (by decide)) (lane_pack _ (by decide) (by decide)) (lane_pack _ (by decide) (by decide)) (lane_pack _ (by decide) (by decide))
theorem pack64_eq (f : Nat → W64) : pack 64 f = d (f 0) (f 1) :=
  ext64 (lane_pack _ (by decide) (by decide)) (lane_pack _ (by decide) (by decide))
theorem zip32_q (f : W32 → W32 → W32) (a b c e a' b' c' e' : W32) :
    zip 32 f (q a b c e) (q a' b' c' e') = q (f a a') (f b b') (f c c') (f e e') := by
  simp [zip, pack32_eq]
theorem map32_q (f : W32 → W32) (a b c e : W32) : map 32 f (q a b c e) = q (f a) (f b) (f c) (f e) := by
  simp [map, pack32_eq]
theorem zip64_d (f : W64 → W64 → W64) (a b a' b' : W64) :
    zip 64 f (d a b) (d a' b') = d (f a a') (f b b') := by
  simp [zip, pack64_eq]
theorem map64_d (f : W64 → W64) (a b : W64) : map 64 f (d a b) = d (f a) (f b) := by
  simp [map, pack64_eq]

/-- Reading back stored registers. -/
theorem wordLE_store (x : V128) (rest : Bytes) {i : Nat} (hi : i < 4) :
    wordLE 32 (store x ++ rest) i = lane 32 i x := by
  apply BitVec.eq_of_getLsbD_eq
  intro k hk
  rw [getLsbD_wordLE _ _ _ (by decide), getLsbD_lane, List.getD_eq_getElem?_getD,
    List.getElem?_append_left (by simp [store]; omega), store, List.getElem?_map,
    List.getElem?_range (by omega)]
  simp only [Option.map_some, Option.getD_some, getLsbD_lane]
  rw [show 8 * (32 / 8 * i + k / 8) + k % 8 = 32 * i + k by omega]
  simp [hk, Nat.mod_lt]

theorem wordLE_words (l : List W32) {i : Nat} (hi : i < l.length) : wordLE 32 (bytesOfWordsLE l) i = l.getD i 0 := by
  have := wordLE_append (w := 32) (by decide) l [] 0 (i := i) hi
  simpa using this

/-- Loading 16 bytes of an array of 32-bit words. -/
theorem load_words32 (l : List W32) (j : Nat) (h : 4 * j + 3 < l.length) : load (bytesOfWordsLE l) (16 * j) =
    q (l.getD (4 * j) 0) (l.getD (4 * j + 1) 0) (l.getD (4 * j + 2) 0) (l.getD (4 * j + 3) 0) := by
  have g := fun i hi => lane_load32 (bytesOfWordsLE l) i j hi
  exact ext32 ((g 0 (by decide)).trans (wordLE_words _ (by omega))) ((g 1 (by decide)).trans (wordLE_words _ (by omega)))
    ((g 2 (by decide)).trans (wordLE_words _ (by omega))) ((g 3 (by decide)).trans (wordLE_words _ (by omega)))

theorem wordLE_words64 (l : List W64) {i : Nat} (hi : i < l.length) : wordLE 64 (bytesOfWordsLE l) i = l.getD i 0 := by
  have := wordLE_append (w := 64) (by decide) l [] 0 (i := i) hi
  simpa using this

/-- Loading 16 bytes of an array of 64-bit words. -/
theorem load_words64 (l : List W64) (j : Nat) (h : 2 * j + 1 < l.length) : load (bytesOfWordsLE l) (16 * j) =
    d (l.getD (2 * j) 0) (l.getD (2 * j + 1) 0) := by
  have g := fun i hi => lane_load64 (bytesOfWordsLE l) i j hi
  exact ext64 ((g 0 (by decide)).trans (wordLE_words64 _ (by omega)))
    ((g 1 (by decide)).trans (wordLE_words64 _ (by omega)))

theorem wordLE_store2 (x y : V128) {i : Nat} (hi : i < 4) : wordLE 32 (store x ++ store y) (4 + i) = lane 32 i y := by
  have := wordLE_drop (w := 32) (store x ++ store y) i 4
  rw [← this, List.drop_left' (by simp [store]), ← List.append_nil (store y), wordLE_store _ _ hi]

theorem wordLE_store64 (x : V128) (rest : Bytes) {i : Nat} (hi : i < 2) :
    wordLE 64 (store x ++ rest) i = lane 64 i x := by
  apply BitVec.eq_of_getLsbD_eq
  intro k hk
  rw [getLsbD_wordLE _ _ _ (by decide), getLsbD_lane, List.getD_eq_getElem?_getD,
    List.getElem?_append_left (by simp [store]; omega), store, List.getElem?_map,
    List.getElem?_range (by omega)]
  simp only [Option.map_some, Option.getD_some, getLsbD_lane]
  rw [show 8 * (64 / 8 * i + k / 8) + k % 8 = 64 * i + k by omega]
  simp [hk, Nat.mod_lt]

theorem wordLE_store64_skip (x : V128) (rest : Bytes) (i : Nat) :
    wordLE 64 (store x ++ rest) (2 + i) = wordLE 64 rest i := by
  have := wordLE_drop (w := 64) (store x ++ rest) i 2
  rw [← this, List.drop_left' (by simp [store])]

/-- Reading back four stored registers as eight 64-bit words. -/
theorem words64_stores (a b c e : V128) : V8.ofFn (wordLE 64 (store a ++ store b ++ store c ++ store e)) =
    ⟨lane 64 0 a, lane 64 1 a, lane 64 0 b, lane 64 1 b, lane 64 0 c, lane 64 1 c, lane 64 0 e, lane 64 1 e⟩ := by
  simp only [List.append_assoc]
  rw [← List.append_nil (store e)]
  have k0 := fun i (hi : i < 2) => wordLE_store64 a (store b ++ (store c ++ (store e ++ []))) hi
  have k1 := fun i (hi : i < 2) => (wordLE_store64_skip a _ i).trans (wordLE_store64 b (store c ++ (store e ++ [])) hi)
  have k2 := fun i (hi : i < 2) => (wordLE_store64_skip a _ (2 + i)).trans
    ((wordLE_store64_skip b _ i).trans (wordLE_store64 c (store e ++ []) hi))
  have k3 := fun i (hi : i < 2) => (wordLE_store64_skip a _ (2 + (2 + i))).trans
    ((wordLE_store64_skip b _ (2 + i)).trans ((wordLE_store64_skip c _ i).trans (wordLE_store64 e [] hi)))
  apply V8.ext
  · exact k0 0 (by decide)
  · exact k0 1 (by decide)
  · exact k1 0 (by decide)
  · exact k1 1 (by decide)
  · exact k2 0 (by decide)
  · exact k2 1 (by decide)
  · exact k3 0 (by decide)
  · exact k3 1 (by decide)

end Simd
end Hashes
