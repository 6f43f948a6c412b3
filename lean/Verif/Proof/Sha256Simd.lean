import Verif.Proof.Sha512Simd
/- SHA-256, WebAssembly backend. -/
namespace Hashes.Sha2Simd
open Simd Spec Wasm
open Hashes.Sha256 (W W_lt W_ge)

theorem rotr_xor32 (x : W32) {n : Nat} (h0 : 0 < n) (h : n < 32) : x.rotateRight n = x >>> n ^^^ x <<< (32 - n) := by
  apply BitVec.eq_of_getLsbD_eq
  intro k hk
  simp only [BitVec.getLsbD_rotateRight, BitVec.getLsbD_xor, BitVec.getLsbD_ushiftRight, BitVec.getLsbD_shiftLeft,
    Nat.mod_eq_of_lt h, hk, decide_true, Bool.true_and]
  by_cases h1 : k < 32 - n
  · simp [h1]
  · rw [BitVec.getLsbD_of_ge x (n + k) (by omega)]
    simp [h1]

theorem s0_shifts32 (x : W32) :
    x >>> 3 ^^^ x >>> 7 ^^^ x <<< 14 ^^^ x >>> 7 >>> 11 ^^^ x <<< 14 <<< 11 = Spec.Sha256.s0 x := by
  rw [Spec.Sha256.s0, rotr_xor32 x (n := 7) (by decide) (by decide), rotr_xor32 x (n := 18) (by decide) (by decide),
    ← BitVec.shiftRight_add, ← BitVec.shiftLeft_add]
  simp only [Nat.reduceSub, Nat.reduceAdd]
  generalize x >>> 3 = a, x >>> 7 = b, x <<< 14 = c, x >>> 18 = e, x <<< 25 = f
  ac_rfl

theorem wadd_q (a b c e a' b' c' e' : W32) :
    u32x4_add (q a b c e) (q a' b' c' e') = q (a + a') (b + b') (c + c') (e + e') := zip32_q ..
theorem wxor_q (a b c e a' b' c' e' : W32) :
    v128_xor (q a b c e) (q a' b' c' e') = q (a ^^^ a') (b ^^^ b') (c ^^^ c') (e ^^^ e') := X86.xor_q ..
theorem wshr_q (a b c e : W32) (n : Nat) :
    u32x4_shr (q a b c e) n = q (a >>> (n % 32)) (b >>> (n % 32)) (c >>> (n % 32)) (e >>> (n % 32)) := by
  rw [u32x4_shr, map32_q]
theorem wshl_q (a b c e : W32) (n : Nat) :
    u32x4_shl (q a b c e) n = q (a <<< (n % 32)) (b <<< (n % 32)) (c <<< (n % 32)) (e <<< (n % 32)) := by
  rw [u32x4_shl, map32_q]
theorem wshuffle1234 (a b c e a' b' c' e' : W32) :
    u32x4_shuffle 1 2 3 4 (q a b c e) (q a' b' c' e') = q b c e a' := by
  rw [u32x4_shuffle, pack32_eq]; simp [V4.get]
theorem wshuffle2233 (a b c e a' b' c' e' : W32) :
    u32x4_shuffle 2 2 3 3 (q a b c e) (q a' b' c' e') = q c c e e := by
  rw [u32x4_shuffle, pack32_eq]; simp [V4.get]
theorem wshuffle0011 (a b c e a' b' c' e' : W32) :
    u32x4_shuffle 0 0 1 1 (q a b c e) (q a' b' c' e') = q a a b b := by
  rw [u32x4_shuffle, pack32_eq]; simp [V4.get]
theorem lane_zero (w i : Nat) : lane w i 0 = 0 := by
  apply BitVec.eq_of_getLsbD_eq; intro k _; rw [getLsbD_lane]; simp
theorem lane_zero32 : lane 32 3 (0#128) = 0#32 := lane_zero 32 3
theorem wshuffle0277 (x : V128) : u32x4_shuffle 0 2 7 7 x 0#128 = q (lane 32 0 x) (lane 32 2 x) 0#32 0#32 := by
  rw [u32x4_shuffle, pack32_eq]; simp [V4.get, lane_zero32]
theorem wshuffle7702 (x : V128) : u32x4_shuffle 7 7 0 2 x 0#128 = q 0#32 0#32 (lane 32 0 x) (lane 32 2 x) := by
  rw [u32x4_shuffle, pack32_eq]; simp [V4.get, lane_zero32]

/-- The low half of a 64-bit right shift of a doubled word is its rotation. -/
theorem shr_double (x : V128) (a : W32) {i n : Nat} (hi : i < 2) (hn : n < 32) (h0 : lane 32 (2 * i) x = a)
    (h1 : lane 32 (2 * i + 1) x = a) : lane 32 (2 * i) (u64x2_shr x n) = a.rotateRight n := by
  apply BitVec.eq_of_getLsbD_eq
  intro k hk
  rw [getLsbD_lane, u64x2_shr, Simd.map, getLsbD_pack (by decide), BitVec.getLsbD_ushiftRight, getLsbD_lane,
    BitVec.getLsbD_rotateRight]
  have e1 : (32 * (2 * i) + k) / 64 = i := by omega
  have e2 : (32 * (2 * i) + k) % 64 = k := by omega
  rw [e1, e2, Nat.mod_eq_of_lt (show n < 64 by omega), Nat.mod_eq_of_lt hn]
  by_cases hc : k < 32 - n
  · have := congrArg (fun z => BitVec.getLsbD z (n + k)) h0
    simp only [getLsbD_lane, show n + k < 32 by omega, decide_true, Bool.true_and] at this
    simp only [hc, decide_true, cond_true, ← this, hk, show n + k < 64 by omega, Bool.true_and,
      show 32 * (2 * i) + k < 128 by omega]
    congr 1; omega
  · have := congrArg (fun z => BitVec.getLsbD z (k - (32 - n))) h1
    simp only [getLsbD_lane, show k - (32 - n) < 32 by omega, decide_true, Bool.true_and] at this
    simp only [hc, decide_false, cond_false, ← this, hk, show n + k < 64 by omega, Bool.true_and, decide_true,
      show 32 * (2 * i) + k < 128 by omega]
    congr 1; omega

theorem shr_shr (x : V128) (n m : Nat) (h : n + m < 64) : u64x2_shr (u64x2_shr x n) m = u64x2_shr x (n + m) := by
  have e : x = d (lane 64 0 x) (lane 64 1 x) := ext64 rfl rfl
  rw [e]
  simp only [wshr_d, ← BitVec.shiftRight_add]
  rw [Nat.mod_eq_of_lt (show n < 64 by omega), Nat.mod_eq_of_lt (show m < 64 by omega), Nat.mod_eq_of_lt h]

/-- σ1 of two doubled words, as the code computes it. -/
theorem s1_double (a b : W32) :
    let t3 := u64x2_shr (q a a b b) 17
    let t2 := v128_xor (v128_xor (u32x4_shr (q a a b b) 10) t3) (u64x2_shr t3 2)
    lane 32 0 t2 = Spec.Sha256.s1 a ∧ lane 32 2 t2 = Spec.Sha256.s1 b := by
  intro t3 t2
  have r0 : ∀ n < 32, lane 32 0 (u64x2_shr (q a a b b) n) = a.rotateRight n := fun n hn =>
    shr_double _ a (i := 0) (by decide) hn (by simp) (by simp)
  have r1 : ∀ n < 32, lane 32 2 (u64x2_shr (q a a b b) n) = b.rotateRight n := fun n hn =>
    shr_double _ b (i := 1) (by decide) hn (by simp) (by simp)
  have e : u64x2_shr t3 2 = u64x2_shr (q a a b b) 19 := shr_shr _ 17 2 (by decide)
  simp only [t2, e]
  simp only [t3, v128_xor, X86.lane_xor, r0 17 (by decide), r0 19 (by decide), r1 17 (by decide), r1 19 (by decide),
    wshr_q, lane32_q0, lane32_q2, Nat.reduceMod, Spec.Sha256.s1]
  constructor
  · generalize a.rotateRight 17 = u, a.rotateRight 19 = v, a >>> 10 = z
    ac_rfl
  · generalize b.rotateRight 17 = u, b.rotateRight 19 = v, b >>> 10 = z
    ac_rfl

def Q (block : Bytes) (r : Nat) : V128 :=
  q (W block (4 * r)) (W block (4 * r + 1)) (W block (4 * r + 2)) (W block (4 * r + 3))

def data256 (block : Bytes) : Data 32 (V4 V128) where
  W := W block
  Kf := Spec.Sha256.K
  G r := q (W block (4 * r) + Spec.Sha256.K (4 * r)) (W block (4 * r + 1) + Spec.Sha256.K (4 * r + 1))
    (W block (4 * r + 2) + Spec.Sha256.K (4 * r + 2)) (W block (4 * r + 3) + Spec.Sha256.K (4 * r + 3))
  xs p := V4.ofFn fun i => Q block (p + i)

theorem ldK256_eq {t : Nat} (h : t + 3 < 64) : ldK Sha256.K32 t =
    q (Spec.Sha256.K t) (Spec.Sha256.K (t + 1)) (Spec.Sha256.K (t + 2)) (Spec.Sha256.K (t + 3)) := by
  have hl := load_words32 (Sha256.K32.drop t) 0 (by simp [Sha256.K32]; omega)
  simp only [Nat.mul_zero] at hl
  rw [ldK, hl]
  have hk : ∀ j, (Sha256.K32.drop t).getD j 0 = Spec.Sha256.K (t + j) := by
    intro j; simp [Spec.Sha256.K, Sha256.K_eq, List.getD_eq_getElem?_getD]
  simp only [hk, Nat.add_zero, Nat.zero_add]

theorem W_ge4 (block : Bytes) {t : Nat} (h : t < 48) :
    W block t + W block (t + 9) + Spec.Sha256.s0 (W block (t + 1)) + Spec.Sha256.s1 (W block (t + 14)) =
      W block (t + 16) := by
  rw [W_ge block h]; ac_rfl

theorem wasmUpdate256_eq (block : Bytes) {p : Nat} (h : p < 12) :
    wasmUpdate256 ((data256 block).xs p) (ldK Sha256.K32 (4 * (p + 4))) = ((data256 block).xs (p + 1), (data256 block).G (p + 4)) := by
  have h0 := W_ge4 block (t := 4 * p) (by omega)
  have h1 := W_ge4 block (t := 4 * p + 1) (by omega)
  have h2 := W_ge4 block (t := 4 * p + 2) (by omega)
  have h3 := W_ge4 block (t := 4 * p + 3) (by omega)
  simp only [Nat.add_assoc, Nat.reduceAdd] at h0 h1 h2 h3
  rw [ldK256_eq (by omega)]
  simp only [data256, V4.ofFn, Q]
  unfold wasmUpdate256
  simp only [wshuffle1234, wshuffle2233, wshr_q, wshl_q, wadd_q, wxor_q, Nat.reduceSub, Nat.reduceMod, s0_shifts32]
  have s1 := fun a b : W32 => s1_double a b
  simp only [wshr_q, Nat.reduceMod] at s1
  simp only [wshuffle0277, wshuffle7702, s1, wadd_q, wshuffle0011, wshr_q, Nat.reduceMod, BitVec.add_zero, BitVec.ofNat_eq_ofNat,
    Nat.mul_add, Nat.reduceMul, Nat.add_assoc, Nat.reduceAdd, Nat.add_zero, h0, h1, h2, h3]

theorem sound_wasm256 (block : Bytes) : Sound wasmOps256 (data256 block) where
  hL := Or.inr rfl
  lanes := by
    intro r _ l hl
    have hl : l < 4 := hl
    rcases l with _ | _ | _ | _ | l
    · exact lane32_q0 _ _ _ _
    · exact lane32_q1 _ _ _ _
    · exact lane32_q2 _ _ _ _
    · exact lane32_q3 _ _ _ _
    · omega
  update := fun _ hp => wasmUpdate256_eq block hp

theorem wload_be32 (block : Bytes) (j : Nat) (hl : 16 * (j + 1) ≤ block.length) :
    i8x16_shuffle swap32 (load block (16 * j)) (load block (16 * j)) =
      q (wordBE 32 block (4 * j)) (wordBE 32 block (4 * j + 1)) (wordBE 32 block (4 * j + 2)) (wordBE 32 block (4 * j + 3)) := by
  have key : ∀ i < 4, lane 32 i (i8x16_shuffle swap32 (load block (16 * j)) (load block (16 * j))) = wordBE 32 block (4 * j + i) := by
    intro i hi
    apply BitVec.eq_of_getLsbD_eq
    intro k hk
    have hs : ∀ i < 16, swap32 i = 4 * (i / 4) + (3 - i % 4) := by decide +kernel
    rw [getLsbD_wordBE _ _ _ (by decide) (by omega), getLsbD_lane, i8x16_shuffle, getLsbD_pack (by decide),
      hs _ (by omega), if_pos (by omega), getLsbD_lane, load, getLsbD_pack (by decide)]
    have e1 : (32 * i + k) / 8 / 4 = i := by omega
    have e2 : (32 * i + k) / 8 % 4 = k / 8 := by omega
    have e3 : (32 * i + k) % 8 = k % 8 := by omega
    have e4 : (8 * (4 * i + (3 - k / 8)) + k % 8) / 8 = 4 * i + (3 - k / 8) := by omega
    have e5 : (8 * (4 * i + (3 - k / 8)) + k % 8) % 8 = k % 8 := by omega
    rw [e1, e2, e3, e4, e5]
    have e6 : 16 * j + (4 * i + (3 - k / 8)) = 32 / 8 * (4 * j + i) + (32 / 8 - 1 - k / 8) := by omega
    rw [e6]
    simp [hk, show 32 * i + k < 128 by omega, show k % 8 < 8 by omega, show 8 * (4 * i + (3 - k / 8)) + k % 8 < 128 by omega]
  exact ext32 (key 0 (by decide)) (key 1 (by decide)) (key 2 (by decide)) (key 3 (by decide))

theorem get_ofFn4 {α : Type} (f : Nat → α) {i : Nat} (hi : i < 4) : (V4.ofFn f).get i = f i := by
  rcases i with _ | _ | _ | _ | i <;> first | (exfalso; omega) | rfl

/-- sha256/wasm32.rs computes the FIPS 180-4 compression function over all blocks. -/
theorem wasm256_eq (s : V8 W32) (blks : List Bytes) (hb : ∀ b ∈ blks, b.length = 64) :
    wasm256 s blks = blks.foldl Spec.Sha256.compress s := by
  induction blks generalizing s with
  | nil => simp only [wasm256, List.foldl_nil]
  | cons b rest ih =>
    have hb1 := hb b (by simp)
    have h : wasmBlock256 s b = Spec.Sha256.compress s b := by
      unfold wasmBlock256
      dsimp only
      have hx : (V4.ofFn fun i => i8x16_shuffle swap32 (load b (16 * i)) (load b (16 * i))) = (data256 b).xs 0 := by
        have e : ∀ i < 4, i8x16_shuffle swap32 (load b (16 * i)) (load b (16 * i)) = Q b i := by
          intro i hi
          rw [wload_be32 b i (by omega), Q, W_lt _ (by omega), W_lt _ (by omega), W_lt _ (by omega), W_lt _ (by omega)]
        simp only [V4.ofFn, data256, Nat.zero_add, e 0, e 1, e 2, e 3, Nat.reduceLT]
      rw [hx]
      refine (blockWith_eq (sound_wasm256 b) s _ fun r hr => ?_).trans (show _ = Spec.Sha256.compress s b from rfl)
      have hr : r < 4 := hr
      refine (Arr.get_ofFn _ hr).trans ?_
      rw [show (data256 b).xs 0 = V4.ofFn fun i => Q b (0 + i) from rfl, get_ofFn4 _ hr, Nat.zero_add,
        ldK256_eq (by omega), Q, wadd_q]
      rfl
    show wasm256 (wasmBlock256 s b) rest = _
    rw [ih _ fun c hc => hb c (by simp [hc]), h]
    rfl

end Hashes.Sha2Simd
