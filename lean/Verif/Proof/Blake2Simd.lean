import Verif.Model.Blake2Simd
import Verif.Proof.Blake2
import Verif.Proof.Counters
import Verif.Proof.Sha256Simd
import Verif.Proof.Sha512Simd
/- The target-dependent code of blake2 agrees with the plain four-lane code on whole blocks. -/
set_option linter.unusedSimpArgs false
namespace Hashes.Blake2.Simd
open Hashes.Blake2

theorem toNat_ror {w : Nat} (x : BitVec w) {n : Nat} (h : n < w) :
    (x.rotateRight n).toNat = x.toNat / 2 ^ n + x.toNat % 2 ^ n * 2 ^ (w - n) := by
  have hx : x.toNat / 2 ^ n < 2 ^ (w - n) := by
    have := x.isLt
    rw [Nat.div_lt_iff_lt_mul (Nat.two_pow_pos _), ← Nat.pow_add]
    rwa [show w - n + n = w by omega]
  have hm : x.toNat * 2 ^ (w - n) % 2 ^ w = x.toNat % 2 ^ n * 2 ^ (w - n) := by
    have h2 : 2 ^ w = 2 ^ n * 2 ^ (w - n) := by rw [← Nat.pow_add]; congr 1; omega
    rw [h2, Nat.mul_mod_mul_right]
  rw [BitVec.toNat_rotateRight, Nat.mod_eq_of_lt h, Nat.shiftRight_eq_div_pow, Nat.shiftLeft_eq, hm, Nat.or_comm,
    ← Nat.shiftLeft_eq, ← Nat.shiftLeft_add_eq_or_of_lt hx, Nat.shiftLeft_eq, Nat.add_comm]

theorem bytes4 (x : W32) : ∃ b0 b1 b2 b3 : Byte, leBytes 4 x.toNat = [b0, b1, b2, b3] ∧
    x.toNat = b0.toNat + 256 * (b1.toNat + 256 * (b2.toNat + 256 * b3.toNat)) := by
  have h := ofLE_leBytes 4 x.toNat
  rw [Nat.mod_eq_of_lt (by have := x.isLt; omega)] at h
  exact ⟨_, _, _, _, rfl, h.symm⟩

theorem bytes8 (x : W64) : ∃ b0 b1 b2 b3 b4 b5 b6 b7 : Byte, leBytes 8 x.toNat = [b0, b1, b2, b3, b4, b5, b6, b7] ∧
    x.toNat = b0.toNat + 256 * (b1.toNat + 256 * (b2.toNat + 256 * (b3.toNat + 256 * (b4.toNat + 256 * (b5.toNat +
      256 * (b6.toNat + 256 * b7.toNat)))))) := by
  have h := ofLE_leBytes 8 x.toNat
  rw [Nat.mod_eq_of_lt (by have := x.isLt; omega)] at h
  exact ⟨_, _, _, _, _, _, _, _, rfl, h.symm⟩

theorem leBytes2 (a b : Byte) : leBytes 2 ((a.toNat + 256 * b.toNat) % 65536) = [a, b] :=
  (leBytes_mod 2 _).trans (leBytes_ofLE [a, b])
theorem leBytes4 (a b c d : Byte) :
    leBytes 4 ((a.toNat + 256 * (b.toNat + 256 * (c.toNat + 256 * d.toNat))) % 4294967296) = [a, b, c, d] :=
  (leBytes_mod 4 _).trans (leBytes_ofLE [a, b, c, d])
theorem leBytes1 (a : Byte) : leBytes 1 a.toNat = [a] := leBytes_ofLE [a]

theorem ror_split {w : Nat} (x : BitVec w) {n lo hi : Nat} (h : n < w) (hx : x.toNat = lo + 2 ^ n * hi) (hlo : lo < 2 ^ n) :
    (x.rotateRight n).toNat = hi + lo * 2 ^ (w - n) := by
  rw [toNat_ror x h, hx, Nat.add_mul_div_left _ _ (Nat.two_pow_pos n), Nat.div_eq_of_lt hlo, Nat.add_mul_mod_self_left,
    Nat.mod_eq_of_lt hlo, Nat.zero_add]

/-- One lane of `transmute_shuffle!` whose table does not cross lanes. -/
def lane {w : Nat} (e : Endian) (m : Nat) (idx : List Nat) (x : BitVec w) : BitVec w :=
  let l : List (BitVec m) := lanesOf e m (neBytes e (w / 8) x.toNat)
  BitVec.ofNat w (ofNe e (memOf e (shuf l l idx)))

theorem ts_32_16_8 (e : Endian) (v : Vec 32) :
    transmuteShuffle e 8 [2, 3, 0, 1, 6, 7, 4, 5, 10, 11, 8, 9, 14, 15, 12, 13] v = v.map (lane e 8 [2, 3, 0, 1]) := by
  cases e <;> simp [transmuteShuffle, lane, lanesOf, memOf, shuf, neBytes, ofNe, leBytes, beBytes, chunks, blocks, ofList, V4.ofFn, V4.toList, V4.map]

theorem lane_32_16_8_little (x : W32) : lane .little 8 [2, 3, 0, 1] x = x.rotateRight 16 := by
  apply BitVec.eq_of_toNat_eq
  obtain ⟨b0, b1, b2, b3, h, hx⟩ := bytes4 x
  have i0 := b0.isLt
  have i1 := b1.isLt
  have i2 := b2.isLt
  have i3 := b3.isLt
  rw [ror_split x (n := 16) (lo := b0.toNat + 256 * (b1.toNat)) (hi := b2.toNat + 256 * (b3.toNat)) (by decide) (by omega) (by omega)]
  simp only [lane, lanesOf, memOf, shuf, neBytes, ofNe, BitVec.toNat_ofNat]
  simp [beBytes, ofBE, h, ofLE, chunks, blocks, leBytes1, leBytes2, leBytes4]
  rw [Nat.mod_eq_of_lt (by omega)]
  omega

theorem ts_32_16_16 (e : Endian) (v : Vec 32) :
    transmuteShuffle e 16 [1, 0, 3, 2, 5, 4, 7, 6] v = v.map (lane e 16 [1, 0]) := by
  cases e <;> simp [transmuteShuffle, lane, lanesOf, memOf, shuf, neBytes, ofNe, leBytes, beBytes, chunks, blocks, ofList, V4.ofFn, V4.toList, V4.map]

theorem lane_32_16_16_little (x : W32) : lane .little 16 [1, 0] x = x.rotateRight 16 := by
  apply BitVec.eq_of_toNat_eq
  obtain ⟨b0, b1, b2, b3, h, hx⟩ := bytes4 x
  have i0 := b0.isLt
  have i1 := b1.isLt
  have i2 := b2.isLt
  have i3 := b3.isLt
  rw [ror_split x (n := 16) (lo := b0.toNat + 256 * (b1.toNat)) (hi := b2.toNat + 256 * (b3.toNat)) (by decide) (by omega) (by omega)]
  simp only [lane, lanesOf, memOf, shuf, neBytes, ofNe, BitVec.toNat_ofNat]
  simp [beBytes, ofBE, h, ofLE, chunks, blocks, leBytes1, leBytes2, leBytes4]
  rw [Nat.mod_eq_of_lt (by omega)]
  omega

theorem lane_32_16_16_big (x : W32) : lane .big 16 [1, 0] x = x.rotateRight 16 := by
  apply BitVec.eq_of_toNat_eq
  obtain ⟨b0, b1, b2, b3, h, hx⟩ := bytes4 x
  have i0 := b0.isLt
  have i1 := b1.isLt
  have i2 := b2.isLt
  have i3 := b3.isLt
  rw [ror_split x (n := 16) (lo := b0.toNat + 256 * (b1.toNat)) (hi := b2.toNat + 256 * (b3.toNat)) (by decide) (by omega) (by omega)]
  simp only [lane, lanesOf, memOf, shuf, neBytes, ofNe, BitVec.toNat_ofNat]
  simp [beBytes, ofBE, h, ofLE, chunks, blocks, leBytes1, leBytes2, leBytes4]
  rw [Nat.mod_eq_of_lt (by omega)]
  omega

theorem ts_32_8_8 (e : Endian) (v : Vec 32) :
    transmuteShuffle e 8 [1, 2, 3, 0, 5, 6, 7, 4, 9, 10, 11, 8, 13, 14, 15, 12] v = v.map (lane e 8 [1, 2, 3, 0]) := by
  cases e <;> simp [transmuteShuffle, lane, lanesOf, memOf, shuf, neBytes, ofNe, leBytes, beBytes, chunks, blocks, ofList, V4.ofFn, V4.toList, V4.map]

theorem lane_32_8_8_little (x : W32) : lane .little 8 [1, 2, 3, 0] x = x.rotateRight 8 := by
  apply BitVec.eq_of_toNat_eq
  obtain ⟨b0, b1, b2, b3, h, hx⟩ := bytes4 x
  have i0 := b0.isLt
  have i1 := b1.isLt
  have i2 := b2.isLt
  have i3 := b3.isLt
  rw [ror_split x (n := 8) (lo := b0.toNat) (hi := b1.toNat + 256 * (b2.toNat + 256 * (b3.toNat))) (by decide) (by omega) (by omega)]
  simp only [lane, lanesOf, memOf, shuf, neBytes, ofNe, BitVec.toNat_ofNat]
  simp [beBytes, ofBE, h, ofLE, chunks, blocks, leBytes1, leBytes2, leBytes4]
  rw [Nat.mod_eq_of_lt (by omega)]
  omega

theorem ts_64_32_32 (e : Endian) (v : Vec 64) :
    transmuteShuffle e 32 [1, 0, 3, 2, 5, 4, 7, 6] v = v.map (lane e 32 [1, 0]) := by
  cases e <;> simp [transmuteShuffle, lane, lanesOf, memOf, shuf, neBytes, ofNe, leBytes, beBytes, chunks, blocks, ofList, V4.ofFn, V4.toList, V4.map]

theorem lane_64_32_32_little (x : W64) : lane .little 32 [1, 0] x = x.rotateRight 32 := by
  apply BitVec.eq_of_toNat_eq
  obtain ⟨b0, b1, b2, b3, b4, b5, b6, b7, h, hx⟩ := bytes8 x
  have i0 := b0.isLt
  have i1 := b1.isLt
  have i2 := b2.isLt
  have i3 := b3.isLt
  have i4 := b4.isLt
  have i5 := b5.isLt
  have i6 := b6.isLt
  have i7 := b7.isLt
  rw [ror_split x (n := 32) (lo := b0.toNat + 256 * (b1.toNat + 256 * (b2.toNat + 256 * (b3.toNat)))) (hi := b4.toNat + 256 * (b5.toNat + 256 * (b6.toNat + 256 * (b7.toNat)))) (by decide) (by omega) (by omega)]
  simp only [lane, lanesOf, memOf, shuf, neBytes, ofNe, BitVec.toNat_ofNat]
  simp [beBytes, ofBE, h, ofLE, chunks, blocks, leBytes1, leBytes2, leBytes4]
  rw [Nat.mod_eq_of_lt (by omega)]
  omega

theorem lane_64_32_32_big (x : W64) : lane .big 32 [1, 0] x = x.rotateRight 32 := by
  apply BitVec.eq_of_toNat_eq
  obtain ⟨b0, b1, b2, b3, b4, b5, b6, b7, h, hx⟩ := bytes8 x
  have i0 := b0.isLt
  have i1 := b1.isLt
  have i2 := b2.isLt
  have i3 := b3.isLt
  have i4 := b4.isLt
  have i5 := b5.isLt
  have i6 := b6.isLt
  have i7 := b7.isLt
  rw [ror_split x (n := 32) (lo := b0.toNat + 256 * (b1.toNat + 256 * (b2.toNat + 256 * (b3.toNat)))) (hi := b4.toNat + 256 * (b5.toNat + 256 * (b6.toNat + 256 * (b7.toNat)))) (by decide) (by omega) (by omega)]
  simp only [lane, lanesOf, memOf, shuf, neBytes, ofNe, BitVec.toNat_ofNat]
  simp [beBytes, ofBE, h, ofLE, chunks, blocks, leBytes1, leBytes2, leBytes4]
  rw [Nat.mod_eq_of_lt (by omega)]
  omega

theorem ts_64_24_8 (e : Endian) (v : Vec 64) :
    transmuteShuffle e 8 [3, 4, 5, 6, 7, 0, 1, 2, 11, 12, 13, 14, 15, 8, 9, 10, 19, 20, 21, 22, 23, 16, 17, 18, 27, 28, 29, 30, 31, 24, 25, 26] v = v.map (lane e 8 [3, 4, 5, 6, 7, 0, 1, 2]) := by
  cases e <;> simp [transmuteShuffle, lane, lanesOf, memOf, shuf, neBytes, ofNe, leBytes, beBytes, chunks, blocks, ofList, V4.ofFn, V4.toList, V4.map]

theorem lane_64_24_8_little (x : W64) : lane .little 8 [3, 4, 5, 6, 7, 0, 1, 2] x = x.rotateRight 24 := by
  apply BitVec.eq_of_toNat_eq
  obtain ⟨b0, b1, b2, b3, b4, b5, b6, b7, h, hx⟩ := bytes8 x
  have i0 := b0.isLt
  have i1 := b1.isLt
  have i2 := b2.isLt
  have i3 := b3.isLt
  have i4 := b4.isLt
  have i5 := b5.isLt
  have i6 := b6.isLt
  have i7 := b7.isLt
  rw [ror_split x (n := 24) (lo := b0.toNat + 256 * (b1.toNat + 256 * (b2.toNat))) (hi := b3.toNat + 256 * (b4.toNat + 256 * (b5.toNat + 256 * (b6.toNat + 256 * (b7.toNat))))) (by decide) (by omega) (by omega)]
  simp only [lane, lanesOf, memOf, shuf, neBytes, ofNe, BitVec.toNat_ofNat]
  simp [beBytes, ofBE, h, ofLE, chunks, blocks, leBytes1, leBytes2, leBytes4]
  rw [Nat.mod_eq_of_lt (by omega)]
  omega

theorem ts_64_16_8 (e : Endian) (v : Vec 64) :
    transmuteShuffle e 8 [2, 3, 4, 5, 6, 7, 0, 1, 10, 11, 12, 13, 14, 15, 8, 9, 18, 19, 20, 21, 22, 23, 16, 17, 26, 27, 28, 29, 30, 31, 24, 25] v = v.map (lane e 8 [2, 3, 4, 5, 6, 7, 0, 1]) := by
  cases e <;> simp [transmuteShuffle, lane, lanesOf, memOf, shuf, neBytes, ofNe, leBytes, beBytes, chunks, blocks, ofList, V4.ofFn, V4.toList, V4.map]

theorem lane_64_16_8_little (x : W64) : lane .little 8 [2, 3, 4, 5, 6, 7, 0, 1] x = x.rotateRight 16 := by
  apply BitVec.eq_of_toNat_eq
  obtain ⟨b0, b1, b2, b3, b4, b5, b6, b7, h, hx⟩ := bytes8 x
  have i0 := b0.isLt
  have i1 := b1.isLt
  have i2 := b2.isLt
  have i3 := b3.isLt
  have i4 := b4.isLt
  have i5 := b5.isLt
  have i6 := b6.isLt
  have i7 := b7.isLt
  rw [ror_split x (n := 16) (lo := b0.toNat + 256 * (b1.toNat)) (hi := b2.toNat + 256 * (b3.toNat + 256 * (b4.toNat + 256 * (b5.toNat + 256 * (b6.toNat + 256 * (b7.toNat)))))) (by decide) (by omega) (by omega)]
  simp only [lane, lanesOf, memOf, shuf, neBytes, ofNe, BitVec.toNat_ofNat]
  simp [beBytes, ofBE, h, ofLE, chunks, blocks, leBytes1, leBytes2, leBytes4]
  rw [Nat.mod_eq_of_lt (by omega)]
  omega

theorem ts_64_16_16 (e : Endian) (v : Vec 64) :
    transmuteShuffle e 16 [1, 2, 3, 0, 5, 6, 7, 4, 9, 10, 11, 8, 13, 14, 15, 12] v = v.map (lane e 16 [1, 2, 3, 0]) := by
  cases e <;> simp [transmuteShuffle, lane, lanesOf, memOf, shuf, neBytes, ofNe, leBytes, beBytes, chunks, blocks, ofList, V4.ofFn, V4.toList, V4.map]

theorem lane_64_16_16_little (x : W64) : lane .little 16 [1, 2, 3, 0] x = x.rotateRight 16 := by
  apply BitVec.eq_of_toNat_eq
  obtain ⟨b0, b1, b2, b3, b4, b5, b6, b7, h, hx⟩ := bytes8 x
  have i0 := b0.isLt
  have i1 := b1.isLt
  have i2 := b2.isLt
  have i3 := b3.isLt
  have i4 := b4.isLt
  have i5 := b5.isLt
  have i6 := b6.isLt
  have i7 := b7.isLt
  rw [ror_split x (n := 16) (lo := b0.toNat + 256 * (b1.toNat)) (hi := b2.toNat + 256 * (b3.toNat + 256 * (b4.toNat + 256 * (b5.toNat + 256 * (b6.toNat + 256 * (b7.toNat)))))) (by decide) (by omega) (by omega)]
  simp only [lane, lanesOf, memOf, shuf, neBytes, ofNe, BitVec.toNat_ofNat]
  simp [beBytes, ofBE, h, ofLE, chunks, blocks, leBytes1, leBytes2, leBytes4]
  rw [Nat.mod_eq_of_lt (by omega)]
  omega

/-! ### The four rotations of each word size -/

theorem vext8_3 (x : W64) : vext8 x 3 = x.rotateRight 24 := by
  apply BitVec.eq_of_toNat_eq
  obtain ⟨b0, b1, b2, b3, b4, b5, b6, b7, h, hx⟩ := bytes8 x
  have i0 := b0.isLt
  have i1 := b1.isLt
  have i2 := b2.isLt
  have i3 := b3.isLt
  have i4 := b4.isLt
  have i5 := b5.isLt
  have i6 := b6.isLt
  have i7 := b7.isLt
  rw [ror_split x (n := 24) (lo := b0.toNat + 256 * (b1.toNat + 256 * b2.toNat))
    (hi := b3.toNat + 256 * (b4.toNat + 256 * (b5.toNat + 256 * (b6.toNat + 256 * b7.toNat)))) (by decide) (by omega) (by omega)]
  simp [vext8, h, ofLE]
  rw [Nat.mod_eq_of_lt (by omega)]
  omega

theorem vext8_2 (x : W64) : vext8 x 2 = x.rotateRight 16 := by
  apply BitVec.eq_of_toNat_eq
  obtain ⟨b0, b1, b2, b3, b4, b5, b6, b7, h, hx⟩ := bytes8 x
  have i0 := b0.isLt
  have i1 := b1.isLt
  have i2 := b2.isLt
  have i3 := b3.isLt
  have i4 := b4.isLt
  have i5 := b5.isLt
  have i6 := b6.isLt
  have i7 := b7.isLt
  rw [ror_split x (n := 16) (lo := b0.toNat + 256 * b1.toNat)
    (hi := b2.toNat + 256 * (b3.toNat + 256 * (b4.toNat + 256 * (b5.toNat + 256 * (b6.toNat + 256 * b7.toNat))))) (by decide)
    (by omega) (by omega)]
  simp [vext8, h, ofLE]
  rw [Nat.mod_eq_of_lt (by omega)]
  omega

theorem vext_eq (v : Vec 64) (b : Nat) : rotateRightVext v b = v.map (vext8 · b) := by
  simp [rotateRightVext, vextU64, shuf, ofList, V4.ofFn, V4.toList, V4.map]

theorem any32 (v : Vec 32) {n : Nat} (h0 : 0 < n) (h : n < 32) : rotateRightAny v n = v.ror n := by
  have e1 : (BitVec.ofNat 32 n).toNat = n := by rw [BitVec.toNat_ofNat]; omega
  have e2 : (BitVec.ofNat 32 32 - BitVec.ofNat 32 n).toNat = 32 - n := by
    rw [BitVec.toNat_sub, e1, BitVec.toNat_ofNat]; omega
  simp only [rotateRightAny, shr, shl, Vec.xor, Vec.ror, V4.zip, V4.map, e1, e2, Sha2Simd.rotr_xor32 _ h0 h]

theorem any64 (v : Vec 64) {n : Nat} (h0 : 0 < n) (h : n < 64) : rotateRightAny v n = v.ror n := by
  have e1 : (BitVec.ofNat 64 n).toNat = n := by rw [BitVec.toNat_ofNat]; omega
  have e2 : (BitVec.ofNat 64 64 - BitVec.ofNat 64 n).toNat = 64 - n := by
    rw [BitVec.toNat_sub, e1, BitVec.toNat_ofNat]; omega
  simp only [rotateRightAny, shr, shl, Vec.xor, Vec.ror, V4.zip, V4.map, e1, e2, Sha2Simd.rotr_xor _ h0 h]

/-- The target features of x86 exist on little-endian targets only. -/
def Target.Valid (t : Target) : Prop := (t.ssse3 = true ∨ t.sse2 = true) → t.endian = .little

theorem ror_of_lane {w : Nat} {f : BitVec w → BitVec w} {n : Nat} (h : ∀ x, f x = x.rotateRight n) (v : Vec w) : v.map f = v.ror n := by
  simp only [V4.map, Vec.ror, h]

theorem rot16x32 {t : Target} (h : t.Valid) (v : Vec 32) : rotateRight16x32 t v = v.ror 16 := by
  unfold rotateRight16x32
  split
  · rename_i hs; rw [h (.inl hs), ts_32_16_8]; exact ror_of_lane lane_32_16_8_little v
  · split
    · rw [ts_32_16_16]
      cases t.endian
      · exact ror_of_lane lane_32_16_16_little v
      · exact ror_of_lane lane_32_16_16_big v
    · exact any32 v (by decide) (by decide)

theorem rot8x32 {t : Target} (h : t.Valid) (v : Vec 32) : rotateRight8x32 t v = v.ror 8 := by
  unfold rotateRight8x32
  split
  · rename_i hs; rw [h (.inl hs), ts_32_8_8]; exact ror_of_lane lane_32_8_8_little v
  · exact any32 v (by decide) (by decide)

theorem rot32x64 (t : Target) (v : Vec 64) : rotateRight32x64 t v = v.ror 32 := by
  unfold rotateRight32x64
  split
  · rw [ts_64_32_32]
    cases t.endian
    · exact ror_of_lane lane_64_32_32_little v
    · exact ror_of_lane lane_64_32_32_big v
  · exact any64 v (by decide) (by decide)

theorem rot24x64 {t : Target} (h : t.Valid) (v : Vec 64) : rotateRight24x64 t v = v.ror 24 := by
  unfold rotateRight24x64
  split
  · rw [vext_eq]; exact ror_of_lane vext8_3 v
  · split
    · rename_i hs; rw [h (.inl hs), ts_64_24_8]; exact ror_of_lane lane_64_24_8_little v
    · exact any64 v (by decide) (by decide)

theorem rot16x64 {t : Target} (h : t.Valid) (v : Vec 64) : rotateRight16x64 t v = v.ror 16 := by
  unfold rotateRight16x64
  split
  · rw [vext_eq]; exact ror_of_lane vext8_2 v
  · split
    · rename_i hs; rw [h (.inl hs), ts_64_16_8]; exact ror_of_lane lane_64_16_8_little v
    · split
      · rename_i hs; rw [h (.inr hs), ts_64_16_16]; exact ror_of_lane lane_64_16_16_little v
      · exact any64 v (by decide) (by decide)

theorem const32 {t : Target} (h : t.Valid) (v : Vec 32) {n : Nat} (h0 : 0 < n) (hn : n < 32) :
    rotateRightConst32 t v n = v.ror n := by
  unfold rotateRightConst32
  split
  · split
    · split
      · exact rot16x32 h v
      · exact rot8x32 h v
      · exact any32 v h0 hn
    · exact any32 v h0 hn
  · rfl

theorem const64 {t : Target} (h : t.Valid) (v : Vec 64) {n : Nat} (h0 : 0 < n) (hn : n < 64) :
    rotateRightConst64 t v n = v.ror n := by
  unfold rotateRightConst64
  split
  · split
    · split
      · exact rot32x64 t v
      · exact rot24x64 h v
      · exact rot16x64 h v
      · exact any64 v h0 hn
    · exact any64 v h0 hn
  · rfl

variable {w : Nat}

theorem left1_eq (t : Target) (v : Vec w) : shuffleLeft1 t v = v.shuffleLeft1 := by
  unfold shuffleLeft1; split <;> rfl
theorem left2_eq (t : Target) (v : Vec w) : shuffleLeft2 t v = v.shuffleLeft2 := by
  unfold shuffleLeft2; split <;> rfl
theorem left3_eq (t : Target) (v : Vec w) : shuffleLeft3 t v = v.shuffleLeft3 := by
  unfold shuffleLeft3; split <;> rfl

/-! ### Compression -/

/-- The vector operations are the lane-wise ones for the rotations a configuration uses. -/
structure Ops.Plain (o : Ops w) (c : Cfg w) : Prop where
  ror : ∀ v, ∀ n ∈ [c.R1, c.R2, c.R3, c.R4], o.ror v n = v.ror n
  left1 : ∀ v, o.left1 v = v.shuffleLeft1
  left2 : ∀ v, o.left2 v = v.shuffleLeft2
  left3 : ∀ v, o.left3 v = v.shuffleLeft3

theorem plain32 {t : Target} (h : t.Valid) : (ops32 t).Plain cfgS where
  ror v n hn := by
    have : 0 < n ∧ n < 32 := by simp [cfgS] at hn; omega
    exact const32 h v this.1 this.2
  left1 := left1_eq t
  left2 := left2_eq t
  left3 := left3_eq t

theorem plain64 {t : Target} (h : t.Valid) : (ops64 t).Plain cfgB where
  ror v n hn := by
    have : 0 < n ∧ n < 64 := by simp [cfgB] at hn; omega
    exact const64 h v this.1 this.2
  left1 := left1_eq t
  left2 := left2_eq t
  left3 := left3_eq t

theorem pow8 (hw : 8 * (w / 8) = w) : 256 ^ (w / 8) = 2 ^ w := by
  rw [show (256 : Nat) = 2 ^ 8 by rfl, ← Nat.pow_mul, hw]

theorem toNat_swap (hw : 8 * (w / 8) = w) (x : BitVec w) : (swapBytes x).toNat = ofBE (leBytes (w / 8) x.toNat) := by
  rw [swapBytes, BitVec.toNat_ofNat, ← pow8 hw]
  refine Nat.mod_eq_of_lt ?_
  have := ofBE_lt (leBytes (w / 8) x.toNat)
  rwa [length_leBytes] at this

theorem wordLe_ofNe (hw : 8 * (w / 8) = w) (e : Endian) {b : Bytes} (hb : b.length = w / 8) :
    wordLe e (BitVec.ofNat w (ofNe e b)) = BitVec.ofNat w (ofLE b) := by
  cases e
  · rfl
  · apply BitVec.eq_of_toNat_eq
    have hlt : ofBE b < 2 ^ w := by have := ofBE_lt b; rwa [hb, pow8 hw] at this
    have hlt' : ofLE b < 2 ^ w := by have := ofLE_lt b; rwa [hb, pow8 hw] at this
    simp only [wordLe, ofNe]
    rw [toNat_swap hw, BitVec.toNat_ofNat, BitVec.toNat_ofNat, Nat.mod_eq_of_lt hlt, Nat.mod_eq_of_lt hlt', ofBE, ofBE,
      leBytes_ofLE' (by simpa using hb), List.reverse_reverse]

theorem neBytes_wordLe (hw : 8 * (w / 8) = w) (e : Endian) (x : BitVec w) :
    neBytes e (w / 8) (wordLe e x).toNat = leBytes (w / 8) x.toNat := by
  cases e
  · rfl
  · simp only [neBytes, wordLe]
    rw [toNat_swap hw, beBytes_ofBE' (by simp)]

theorem wordLe_wordNe (hw : 8 * (w / 8) = w) (e : Endian) {b : Bytes} (hb : b.length = 16 * (w / 8)) {i : Nat} (hi : i < 16) :
    wordLe e (wordNe e w b i) = wordLE w b i := by
  refine wordLe_ofNe hw e ?_
  have := Nat.mul_le_mul_left (w / 8) (show i + 1 ≤ 16 by omega)
  rw [Nat.mul_succ] at this
  simp only [List.length_take, List.length_drop, hb]
  omega

theorem fromLe_gather (hw : 8 * (w / 8) = w) (e : Endian) {b : Bytes} (hb : b.length = 16 * (w / 8)) {i j k l : Nat}
    (hi : i < 16) (hj : j < 16) (hk : k < 16) (hl : l < 16) :
    fromLe e (gather (wordNe e w b) i j k l) = gather (wordLE w b) i j k l := by
  have e1 := wordLe_wordNe hw e hb hi
  have e2 := wordLe_wordNe hw e hb hj
  have e3 := wordLe_wordNe hw e hb hk
  have e4 := wordLe_wordNe hw e hb hl
  simp only [gather, ← e1, ← e2, ← e3, ← e4]
  cases e <;> rfl

theorem quarter_eq {o : Ops w} {c : Cfg w} (p : o.Plain c) (v : V4 (Vec w)) {rd rb : Nat}
    (h1 : rd ∈ [c.R1, c.R2, c.R3, c.R4]) (h2 : rb ∈ [c.R1, c.R2, c.R3, c.R4]) {m m' : Vec w} (hm : fromLe o.endian m = m') :
    quarterRound o v rd rb m = Blake2.quarterRound v rd rb m' := by
  simp only [quarterRound, Blake2.quarterRound, hm, p.ror _ _ h1, p.ror _ _ h2]

theorem round_eq (hw : 8 * (w / 8) = w) {o : Ops w} {c : Cfg w} (p : o.Plain c) {b : Bytes} (hb : b.length = 16 * (w / 8))
    {s : List Nat} (hs : ∀ i, s.getD i 0 < 16) (v : V4 (Vec w)) :
    round o c (wordNe o.endian w b) s v = Blake2.round c (wordLE w b) s v := by
  have m1 : c.R1 ∈ [c.R1, c.R2, c.R3, c.R4] := by simp
  have m2 : c.R2 ∈ [c.R1, c.R2, c.R3, c.R4] := by simp
  have m3 : c.R3 ∈ [c.R1, c.R2, c.R3, c.R4] := by simp
  have m4 : c.R4 ∈ [c.R1, c.R2, c.R3, c.R4] := by simp
  have g := fun i j k l => fromLe_gather hw o.endian hb (hs i) (hs j) (hs k) (hs l)
  simp only [round, Blake2.round, quarter_eq p _ m1 m2 (g _ _ _ _), quarter_eq p _ m3 m4 (g _ _ _ _), shuffle, Blake2.shuffle,
    unshuffle, Blake2.unshuffle, p.left1, p.left2, p.left3, Vec.shuffleRight1, Vec.shuffleRight2, Vec.shuffleRight3]

theorem sigma_lt {r : Nat} (hr : r < 12) (i : Nat) : (sigma r).getD i 0 < 16 := by
  rcases Nat.lt_or_ge i 16 with hi | hi
  · have : ∀ r < 12, ∀ i < 16, (sigma r).getD i 0 < 16 := by decide +kernel
    exact this r hr i hi
  · have : ∀ r < 12, (sigma r).length = 16 := by decide +kernel
    rw [List.getD_eq_getElem?_getD, List.getElem?_eq_none (by rw [this r hr]; exact hi)]
    decide

/-- `compress` over the rounds as a parameter. -/
def body (c : Cfg w) (h : V2 (Vec w)) (t : W64) (f0 f1 : BitVec w) (F : Nat → V4 (Vec w) → V4 (Vec w)) : V2 (Vec w) :=
  let t0 : BitVec w := t.setWidth w
  let t1 : BitVec w := if c.bytes = 64 then 0 else (t >>> 32).setWidth w
  let v : V4 (Vec w) := ⟨h.x0, h.x1, c.iv0, c.iv1.xor ⟨t0, t1, f0, f1⟩⟩
  let v := F 9 (F 8 (F 7 (F 6 (F 5 (F 4 (F 3 (F 2 (F 1 (F 0 v)))))))))
  let v := if c.bytes = 64 then F 1 (F 0 v) else v
  ⟨h.x0.xor (v.x0.xor v.x2), h.x1.xor (v.x1.xor v.x3)⟩

theorem body_congr {c : Cfg w} {h : V2 (Vec w)} {t : W64} {f0 f1 : BitVec w} {F G : Nat → V4 (Vec w) → V4 (Vec w)}
    (e : ∀ r < 12, F r = G r) : body c h t f0 f1 F = body c h t f0 f1 G := by
  simp only [body, e 0 (by decide), e 1 (by decide), e 2 (by decide), e 3 (by decide), e 4 (by decide), e 5 (by decide),
    e 6 (by decide), e 7 (by decide), e 8 (by decide), e 9 (by decide)]

theorem compress_body (o : Ops w) (c : Cfg w) (h : V2 (Vec w)) (t : W64) (b : Bytes) (f0 f1 : BitVec w) :
    compress o c h t b f0 f1 = body c h t f0 f1 fun r => round o c (wordNe o.endian w b) (sigma r) := (rfl)

theorem compress_body' (c : Cfg w) (h : V2 (Vec w)) (t : W64) (b : Bytes) (f0 f1 : BitVec w) :
    Blake2.compress c h t b f0 f1 = body c h t f0 f1 fun r => Blake2.round c (wordLE w b) (sigma r) := (rfl)

theorem compress_eq (hw : 8 * (w / 8) = w) {o : Ops w} {c : Cfg w} (p : o.Plain c) {b : Bytes} (hb : b.length = 16 * (w / 8))
    (h : V2 (Vec w)) (t : W64) (f0 f1 : BitVec w) : compress o c h t b f0 f1 = Blake2.compress c h t b f0 f1 := by
  rw [compress_body, compress_body']
  exact body_congr fun r hr => funext fun v => round_eq hw p hb (sigma_lt hr) v

theorem updateBlocks_eq (hw : 8 * (w / 8) = w) {o : Ops w} {c : Cfg w} (p : o.Plain c) (hc : c.blockSize = 16 * (w / 8))
    (blks : List Bytes) (hb : ∀ x ∈ blks, x.length = c.blockSize) (s : State w) :
    updateBlocks o c s blks = Blake2.updateBlocks c s blks := by
  induction blks generalizing s with
  | nil => rw [updateBlocks, Blake2.updateBlocks, List.foldl_nil, List.foldl_nil]
  | cons x xs ih =>
    have hx := hb x (by simp)
    simp only [updateBlocks, Blake2.updateBlocks, List.foldl_cons] at ih ⊢
    rw [compress_eq hw p (hx.trans hc)]
    exact ih (fun y hy => hb y (by simp [hy])) _

theorem toLe_bytes (hw : 8 * (w / 8) = w) (e : Endian) (v : Vec w) :
    ((toLe e v).toList.flatMap fun x => neBytes e (w / 8) x.toNat) = v.toList.flatMap fun x => leBytes (w / 8) x.toNat := by
  cases e with
  | little => rfl
  | big =>
    simp only [toLe, V4.toList, List.flatMap_cons, List.flatMap_nil, neBytes_wordLe hw]

theorem finalizeFull_eq (hw : 8 * (w / 8) = w) {o : Ops w} {c : Cfg w} (p : o.Plain c) (hc : c.blockSize = 16 * (w / 8))
    (s : State w) {b : BlockBuffer} (wf : b.WF .lazy c.blockSize) : finalizeFull o c s b = Blake2.finalizeFull c s b := by
  have hl : ((b.padWithZeros c.blockSize).1).length = 16 * (w / 8) := by
    simp only [BlockBuffer.padWithZeros, List.length_append, List.length_replicate, List.length_take, wf.1]
    have := wf.pos_le
    omega
  simp only [finalizeFull, Blake2.finalizeFull, compress_eq hw p hl, asBytes, List.flatMap_cons, List.flatMap_nil, List.append_nil,
    toLe_bytes hw, bytesOfWordsLE, List.flatMap_append]

/-! ### Digests and tags -/

theorem digest_eq (hw : 8 * (w / 8) = w) {o : Ops w} {c : Cfg w} (p : o.Plain c) (hc : c.blockSize = 16 * (w / 8)) {n : Nat} {s : State w}
    {inv : State w → Prop} (L : ((Blake2.varCore c).ctWith n s).Lawful inv) (l : List Bytes) :
    ((varCore o c).ctWith n s).finish (((varCore o c).ctWith n s).updates ((varCore o c).ctWith n s).new l) =
      ((Blake2.varCore c).ctWith n s).finish (((Blake2.varCore c).ctWith n s).updates ((Blake2.varCore c).ctWith n s).new l) := by
  have hk : ((varCore o c).ctWith n s).kind = ((Blake2.varCore c).ctWith n s).kind :=
    (show _ = BufKind.lazy from rfl).trans (show BufKind.lazy = _ from rfl)
  have hb : ((varCore o c).ctWith n s).bs = ((Blake2.varCore c).ctWith n s).bs :=
    (show _ = c.blockSize from rfl).trans (show c.blockSize = _ from rfl)
  have hi : ((Blake2.varCore c).ctWith n s).init = ((varCore o c).ctWith n s).init :=
    (show _ = s from rfl).trans (show s = _ from rfl)
  obtain ⟨e1, e2⟩ := updates_rel L Eq hk hb hi l
    fun x _ s t blks hbl _ e => e ▸ (updateBlocks_eq hw p hc blks hbl s).symm
  rw [Core.finish, Core.finish, ← e1, ← e2]
  exact congrArg (List.take n) (finalizeFull_eq hw p hc _ ((Core.Rep.new L).updates L l).1)

theorem macRun_eq (hw : 8 * (w / 8) = w) (h0 : 0 < w) {o : Ops w} {c : Cfg w} (p : o.Plain c) (hc : c.blockSize = 16 * (w / 8))
    (out : Nat) (ops : List MacOp) (m : Mac w) (wf : m.buffer.WF .lazy c.blockSize)
    (hk : ∀ k, m.keyBlock = some k → k.length ≤ c.blockSize) : macRun o c out m ops = m.run c out ops := by
  have hbs : 0 < c.blockSize := by omega
  have hreset : (m.reset c).buffer.WF .lazy c.blockSize := by
    unfold Mac.reset
    dsimp only
    split
    · rename_i k hk'
      have := hk k hk'
      have hl : (padded c.blockSize k).length = c.blockSize := by
        rw [padded, length_overwrite (by simpa using this), List.length_replicate]
      exact ⟨hl, by simp only [bufferOf]; omega⟩
    · exact ⟨by simp [BlockBuffer.empty], by simp [BlockBuffer.empty]⟩
  have hupd : ∀ s blks, (∀ x ∈ blks, x.length = c.blockSize) → updateBlocks o c s blks = Blake2.updateBlocks c s blks :=
    fun s blks hb => updateBlocks_eq hw p hc blks hb s
  induction ops generalizing m with
  | nil => rfl
  | cons op ops ih =>
    have hfin : macFinalize o c out m = m.finalize c out := by
      rw [macFinalize, Mac.finalize, finalizeFull_eq hw p hc _ wf]
    cases op with
    | update d =>
      have r := digestBlocks_rel Eq hbs wf d (updateBlocks o c) (Blake2.updateBlocks c) m.core m.core
        (fun s t blks hb _ e => e ▸ hupd s blks hb) rfl
      have e : macUpdate o c m d = m.update c d := by
        simp only [macUpdate, Mac.update, r.1, r.2]
      have wf' : (m.update c d).buffer.WF .lazy c.blockSize :=
        (BlockBuffer.digestBlocks_spec hbs wf d (Blake2.updateBlocks c) m.core (fun _ => rfl)
          (fun s x y => by simp only [Blake2.updateBlocks, List.foldl_append])).1
      have hre : ((m.update c d).reset c).buffer = (m.reset c).buffer := rfl
      simp only [macRun, Mac.run, e]
      exact ih _ wf' hk (hre ▸ hreset)
    | reset => exact ih _ hreset hk hreset
    | finalizeReset =>
      simp only [macRun, Mac.run, hfin]
      exact congrArg _ (ih _ hreset hk hreset)
    | finalizeClone =>
      simp only [macRun, Mac.run, hfin]
      exact congrArg _ (ih _ wf hk hreset)

end Hashes.Blake2.Simd
