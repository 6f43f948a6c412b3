import Verif.Isa.X86
/- What the x86 intrinsics do to registers given by their 32-bit or 64-bit lanes. -/
namespace Hashes.X86
open Simd

theorem set32_q (a b c e : W32) : mm_set_epi32 a b c e = q e c b a := by
  simp [mm_set_epi32, pack32_eq, V4.get]
theorem add32_q (a b c e a' b' c' e' : W32) :
    mm_add_epi32 (q a b c e) (q a' b' c' e') = q (a + a') (b + b') (c + c') (e + e') := zip32_q ..
theorem add64_d (a b a' b' : W64) : mm_add_epi64 (d a b) (d a' b') = d (a + a') (b + b') := zip64_d ..

theorem lane_xor (w i : Nat) (x y : V128) : lane w i (x ^^^ y) = lane w i x ^^^ lane w i y := by
  apply BitVec.eq_of_getLsbD_eq
  intro k hk
  rw [BitVec.getLsbD_xor, getLsbD_lane, getLsbD_lane, getLsbD_lane, BitVec.getLsbD_xor]
  simp [hk]

theorem xor_q (a b c e a' b' c' e' : W32) :
    mm_xor_si128 (q a b c e) (q a' b' c' e') = q (a ^^^ a') (b ^^^ b') (c ^^^ c') (e ^^^ e') :=
  ext32 (by simp [mm_xor_si128, lane_xor]) (by simp [mm_xor_si128, lane_xor]) (by simp [mm_xor_si128, lane_xor])
    (by simp [mm_xor_si128, lane_xor])
theorem xor_d (a b a' b' : W64) : mm_xor_si128 (d a b) (d a' b') = d (a ^^^ a') (b ^^^ b') :=
  ext64 (by simp [mm_xor_si128, lane_xor]) (by simp [mm_xor_si128, lane_xor])

/-- Narrow lanes of a wide lane. -/
theorem lane_sub {v w i j : Nat} (x y : V128) {i' : Nat} (h : lane w i x = lane w i' y) (hj : v * (j + 1) ≤ w) :
    x.extractLsb' (w * i + v * j) v = y.extractLsb' (w * i' + v * j) v := by
  apply BitVec.eq_of_getLsbD_eq
  intro k hk
  have hlt : v * j + k < w := by rw [Nat.mul_add] at hj; omega
  have := congrArg (fun z => BitVec.getLsbD z (v * j + k)) h
  simp only [getLsbD_lane] at this
  simpa [hk, hlt, ← Nat.add_assoc] using this

/-- A wide lane is determined by narrow lanes. -/
theorem lane_of_narrow {v n : Nat} {i i' : Nat} {x y : V128} (hv : 0 < v)
    (h : ∀ j < n, lane v (n * i + j) x = lane v (n * i' + j) y) : lane (v * n) i x = lane (v * n) i' y := by
  apply BitVec.eq_of_getLsbD_eq
  intro k hk
  have hj : k / v < n := Nat.div_lt_of_lt_mul hk
  have := congrArg (fun z => BitVec.getLsbD z (k % v)) (h (k / v) hj)
  simp only [getLsbD_lane, Nat.mod_lt k hv, decide_true, Bool.true_and] at this
  have e : ∀ i, v * (n * i + k / v) + k % v = v * n * i + k := by
    intro i; rw [Nat.mul_add, Nat.add_assoc, Nat.div_add_mod, Nat.mul_assoc]
  rw [e, e] at this
  rw [getLsbD_lane, getLsbD_lane, this]

theorem shuffle32_q (a b c e : W32) (imm : Nat) :
    mm_shuffle_epi32 (q a b c e) imm =
      q ((⟨a, b, c, e⟩ : V4 W32).get (imm % 4)) ((⟨a, b, c, e⟩ : V4 W32).get (imm / 4 % 4))
        ((⟨a, b, c, e⟩ : V4 W32).get (imm / 16 % 4)) ((⟨a, b, c, e⟩ : V4 W32).get (imm / 64 % 4)) := by
  have h : ∀ n, n % 4 < 4 := fun n => Nat.mod_lt _ (by decide)
  have g : ∀ n < 4, lane 32 n (q a b c e) = (⟨a, b, c, e⟩ : V4 W32).get n := fun n hn => lane_pack _ (by decide) (by omega)
  simp only [mm_shuffle_epi32, pack32_eq]
  rw [g _ (h _), g _ (h _), g _ (h _), g _ (h _)]
  simp

/-- PALIGNR by a whole number of 32-bit lanes. -/
theorem alignr32 (x y : V128) {n i : Nat} (hn : n ≤ 4) (hi : i < 4) :
    lane 32 i (mm_alignr_epi8 x y (4 * n)) = if n + i < 4 then lane 32 (n + i) y else lane 32 (n + i - 4) x := by
  have hb : ∀ j < 4, lane 8 (4 * i + j) (mm_alignr_epi8 x y (4 * n)) =
      if n + i < 4 then lane 8 (4 * (n + i) + j) y else lane 8 (4 * (n + i - 4) + j) x := by
    intro j hj
    rw [mm_alignr_epi8, lane_pack _ (by decide) (by omega)]
    by_cases h : n + i < 4
    · rw [if_pos (by omega), if_pos h, ← Nat.add_assoc, ← Nat.mul_add]
    · rw [if_neg (by omega), if_pos (by omega), if_neg h, show 4 * n + (4 * i + j) - 16 = 4 * (n + i - 4) + j by omega]
  by_cases h : n + i < 4
  · simp only [if_pos h] at hb ⊢
    exact lane_of_narrow (v := 8) (n := 4) (by decide) hb
  · simp only [if_neg h] at hb ⊢
    exact lane_of_narrow (v := 8) (n := 4) (by decide) hb

theorem alignr4_q (a b c e a' b' c' e' : W32) :
    mm_alignr_epi8 (q a b c e) (q a' b' c' e') 4 = q b' c' e' a := by
  have h := fun i hi => alignr32 (q a b c e) (q a' b' c' e') (n := 1) (i := i) (by decide) hi
  exact ext32 (by simpa using h 0 (by decide)) (by simpa using h 1 (by decide)) (by simpa using h 2 (by decide))
    (by simpa using h 3 (by decide))

theorem alignr8_q (a b c e a' b' c' e' : W32) :
    mm_alignr_epi8 (q a b c e) (q a' b' c' e') 8 = q c' e' a b := by
  have h := fun i hi => alignr32 (q a b c e) (q a' b' c' e') (n := 2) (i := i) (by decide) hi
  exact ext32 (by simpa using h 0 (by decide)) (by simpa using h 1 (by decide)) (by simpa using h 2 (by decide))
    (by simpa using h 3 (by decide))

/-- PALIGNR by 8 bytes on 64-bit lanes. -/
theorem alignr8_d (a b a' b' : W64) : mm_alignr_epi8 (d a b) (d a' b') 8 = d b' a := by
  apply ext64
  · rw [lane_of_narrow (v := 8) (n := 8) (i' := 1) (y := d a' b') (by decide)]
    · simp
    · intro j hj
      rw [mm_alignr_epi8, lane_pack _ (by decide) (by omega), if_pos (by omega)]
      congr 1
      omega
  · rw [lane_of_narrow (v := 8) (n := 8) (i' := 0) (y := d a b) (by decide)]
    · simp
    · intro j hj
      rw [mm_alignr_epi8, lane_pack _ (by decide) (by omega), if_neg (by omega), if_pos (by omega)]
      congr 1
      omega

theorem blendF0_q (a b c e a' b' c' e' : W32) :
    mm_blend_epi16 (q a b c e) (q a' b' c' e') 0xF0 = q a b c' e' := by
  have key : ∀ i < 4, lane 32 i (mm_blend_epi16 (q a b c e) (q a' b' c' e') 0xF0) =
      if i < 2 then lane 32 i (q a b c e) else lane 32 i (q a' b' c' e') := by
    intro i hi
    have hb : ∀ j < 2, lane 16 (2 * i + j) (mm_blend_epi16 (q a b c e) (q a' b' c' e') 0xF0) =
        if i < 2 then lane 16 (2 * i + j) (q a b c e) else lane 16 (2 * i + j) (q a' b' c' e') := by
      intro j hj
      rw [mm_blend_epi16, lane_pack _ (by decide) (by omega)]
      have : ∀ i < 4, ∀ j < 2, (0xF0 : Nat).testBit (2 * i + j) = !decide (i < 2) := by decide
      rw [this i hi j hj]
      by_cases h : i < 2 <;> simp [h]
    by_cases h : i < 2
    · simp only [if_pos h] at hb ⊢
      exact lane_of_narrow (v := 16) (n := 2) (by decide) hb
    · simp only [if_neg h] at hb ⊢
      exact lane_of_narrow (v := 16) (n := 2) (by decide) hb
  exact ext32 (by simpa using key 0 (by decide)) (by simpa using key 1 (by decide))
    (by simpa using key 2 (by decide)) (by simpa using key 3 (by decide))

/-- Reversal of the bytes of every 32-bit lane of a loaded register gives the big-endian words in order,
whatever mask is used to express it. -/
theorem load_be32 (block : Bytes) (j : Nat) (m : V128) (p : Nat → Nat)
    (hm : ∀ i < 16, ¬ (lane 8 i m).getLsbD 7 ∧ (lane 8 i m).toNat % 16 = 4 * p (i / 4) + (3 - i % 4))
    (hp : ∀ i < 4, p i < 4) (hl : 16 * (j + 1) ≤ block.length) :
    mm_shuffle_epi8 (load block (16 * j)) m =
      q (wordBE 32 block (4 * j + p 0)) (wordBE 32 block (4 * j + p 1)) (wordBE 32 block (4 * j + p 2))
        (wordBE 32 block (4 * j + p 3)) := by
  have key : ∀ i < 4, lane 32 i (mm_shuffle_epi8 (load block (16 * j)) m) = wordBE 32 block (4 * j + p i) := by
    intro i hi
    have hpi := hp i hi
    apply BitVec.eq_of_getLsbD_eq
    intro k hk
    rw [getLsbD_wordBE _ _ _ (by decide) (by omega), getLsbD_lane, mm_shuffle_epi8, getLsbD_pack (by decide)]
    have h := hm ((32 * i + k) / 8) (by omega)
    rw [if_neg h.1, h.2, getLsbD_lane, load, getLsbD_pack (by decide)]
    have e1 : (32 * i + k) / 8 / 4 = i := by omega
    have e2 : (32 * i + k) / 8 % 4 = k / 8 := by omega
    have e3 : (32 * i + k) % 8 = k % 8 := by omega
    rw [e1, e2, e3, Nat.mul_add_div (by decide), Nat.mul_add_mod, Nat.div_eq_of_lt (Nat.mod_lt k (by decide)),
      Nat.mod_mod, show 16 * j + (4 * p i + (3 - k / 8) + 0) = 32 / 8 * (4 * j + p i) + (32 / 8 - 1 - k / 8) by omega]
    have b1 : 32 * i + k < 128 := by omega
    have b2 : 8 * (4 * p i + (3 - k / 8)) + k % 8 < 128 := by omega
    simp [hk, b1, b2, Nat.mod_lt k]
  exact ext32 (key 0 (by decide)) (key 1 (by decide)) (key 2 (by decide)) (key 3 (by decide))

/-- The same for 64-bit lanes. -/
theorem load_be64 (block : Bytes) (j : Nat) (m : V128)
    (hm : ∀ i < 16, ¬ (lane 8 i m).getLsbD 7 ∧ (lane 8 i m).toNat % 16 = 8 * (i / 8) + (7 - i % 8))
    (hl : 16 * (j + 1) ≤ block.length) :
    mm_shuffle_epi8 (load block (16 * j)) m = d (wordBE 64 block (2 * j)) (wordBE 64 block (2 * j + 1)) := by
  have key : ∀ i < 2, lane 64 i (mm_shuffle_epi8 (load block (16 * j)) m) = wordBE 64 block (2 * j + i) := by
    intro i hi
    apply BitVec.eq_of_getLsbD_eq
    intro k hk
    rw [getLsbD_wordBE _ _ _ (by decide) (by omega), getLsbD_lane, mm_shuffle_epi8, getLsbD_pack (by decide)]
    have h := hm ((64 * i + k) / 8) (by omega)
    rw [if_neg h.1, h.2, getLsbD_lane, load, getLsbD_pack (by decide)]
    have e1 : (64 * i + k) / 8 / 8 = i := by omega
    have e2 : (64 * i + k) / 8 % 8 = k / 8 := by omega
    have e3 : (64 * i + k) % 8 = k % 8 := by omega
    rw [e1, e2, e3, Nat.mul_add_div (by decide), Nat.mul_add_mod, Nat.div_eq_of_lt (Nat.mod_lt k (by decide)),
      Nat.mod_mod, show 16 * j + (8 * i + (7 - k / 8) + 0) = 64 / 8 * (2 * j + i) + (64 / 8 - 1 - k / 8) by omega]
    have b1 : 64 * i + k < 128 := by omega
    have b2 : 8 * (8 * i + (7 - k / 8)) + k % 8 < 128 := by omega
    simp [hk, b1, b2, Nat.mod_lt k]
  exact ext64 (key 0 (by decide)) (key 1 (by decide))

end Hashes.X86
