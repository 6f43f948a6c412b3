import Verif.Proof.Sha2Simd
/- SHA-512, WebAssembly and AVX2 backends. -/
namespace Hashes.Sha2Simd
open Simd Spec
open Hashes.Sha512 (W W_lt W_ge)

theorem rotr_xor (x : W64) {n : Nat} (h0 : 0 < n) (h : n < 64) : x.rotateRight n = x >>> n ^^^ x <<< (64 - n) := by
  apply BitVec.eq_of_getLsbD_eq
  intro k hk
  simp only [BitVec.getLsbD_rotateRight, BitVec.getLsbD_xor, BitVec.getLsbD_ushiftRight, BitVec.getLsbD_shiftLeft,
    Nat.mod_eq_of_lt h, hk, decide_true, Bool.true_and]
  by_cases h1 : k < 64 - n
  · simp [h1]
  · rw [BitVec.getLsbD_of_ge x (n + k) (by omega)]
    simp [h1]

theorem s0_shifts (x : W64) :
    x >>> 7 ^^^ x >>> 1 ^^^ x <<< 56 ^^^ x >>> 1 >>> 7 ^^^ x <<< 56 <<< 7 = Spec.Sha512.s0 x := by
  rw [Spec.Sha512.s0, rotr_xor x (n := 1) (by decide) (by decide), rotr_xor x (n := 8) (by decide) (by decide),
    ← BitVec.shiftRight_add, ← BitVec.shiftLeft_add]
  simp only [Nat.reduceSub, Nat.reduceAdd]
  generalize x >>> 7 = a, x >>> 1 = b, x <<< 56 = c, x >>> 8 = e, x <<< 63 = f
  ac_rfl

theorem s1_shifts (x : W64) :
    x >>> 6 ^^^ x <<< 3 ^^^ x >>> 19 ^^^ x <<< 3 <<< 42 ^^^ x >>> 19 >>> 42 = Spec.Sha512.s1 x := by
  rw [Spec.Sha512.s1, rotr_xor x (n := 19) (by decide) (by decide), rotr_xor x (n := 61) (by decide) (by decide),
    ← BitVec.shiftRight_add, ← BitVec.shiftLeft_add]
  simp only [Nat.reduceSub, Nat.reduceAdd]
  generalize x >>> 6 = a, x <<< 3 = b, x >>> 19 = c, x <<< 45 = e, x >>> 61 = f
  ac_rfl

/-- Two consecutive schedule words as a register. -/
def D2 (block : Bytes) (r : Nat) : V128 := d (W block (2 * r)) (W block (2 * r + 1))

/-- The data of a run over `block`. -/
def data512 (block : Bytes) : Data 64 (V8 V128) where
  W := W block
  Kf := Spec.Sha512.K
  G r := d (W block (2 * r) + Spec.Sha512.K (2 * r)) (W block (2 * r + 1) + Spec.Sha512.K (2 * r + 1))
  xs p := V8.ofFn fun i => D2 block (p + i)

theorem ldK512_eq {t : Nat} (h : t + 1 < 80) : ldK Sha512.K64 t = d (Spec.Sha512.K t) (Spec.Sha512.K (t + 1)) := by
  have hl := load_words64 (Sha512.K64.drop t) 0 (by simp [Sha512.K64]; omega)
  simp only [Nat.mul_zero] at hl
  rw [ldK, hl]
  have hk : ∀ j, (Sha512.K64.drop t).getD j 0 = Spec.Sha512.K (t + j) := by
    intro j; simp [Spec.Sha512.K, Sha512.K_eq, List.getD_eq_getElem?_getD]
  simp only [hk, Nat.add_zero, Nat.zero_add]

theorem srli_d (a b : W64) (n : Nat) : X86.mm_srli_epi64 (d a b) n = d (a >>> n) (b >>> n) := by
  rw [X86.mm_srli_epi64, map64_d]
theorem slli_d (a b : W64) (n : Nat) : X86.mm_slli_epi64 (d a b) n = d (a <<< n) (b <<< n) := by
  rw [X86.mm_slli_epi64, map64_d]

theorem W_ge' (block : Bytes) {p : Nat} (h : p < 32) :
    W block (2 * p) + W block (2 * p + 9) + Spec.Sha512.s0 (W block (2 * p + 1)) + Spec.Sha512.s1 (W block (2 * p + 14)) =
      W block (2 * p + 16) ∧
    W block (2 * p + 1) + W block (2 * p + 10) + Spec.Sha512.s0 (W block (2 * p + 2)) + Spec.Sha512.s1 (W block (2 * p + 15)) =
      W block (2 * p + 17) := by
  have h0 := W_ge block (t := 2 * p) (by omega)
  have h1 := W_ge block (t := 2 * p + 1) (by omega)
  simp only [Nat.add_assoc, Nat.reduceAdd] at h0 h1
  rw [h0, h1]
  constructor <;> ac_rfl

theorem avxUpdate_eq (block : Bytes) {p : Nat} (h : p < 32) :
    avxUpdate ((data512 block).xs p) (ldK Sha512.K64 (2 * (p + 8))) = ((data512 block).xs (p + 1), (data512 block).G (p + 8)) := by
  obtain ⟨h0, h1⟩ := W_ge' block h
  rw [ldK512_eq (by omega)]
  simp only [data512, V8.ofFn, D2]
  unfold avxUpdate
  simp only [X86.alignr8_d, srli_d, slli_d, X86.add64_d, X86.xor_d, Nat.reduceSub, s0_shifts, s1_shifts,
    Nat.mul_add, Nat.reduceMul, Nat.add_assoc, Nat.reduceAdd, Nat.add_zero, h0, h1]

theorem sound_avx (block : Bytes) : Sound avxOps (data512 block) where
  hL := Or.inl rfl
  lanes := by
    intro r _ l hl
    have hl : l < 2 := hl
    rcases l with _ | _ | l
    · exact lane64_d0 _ _
    · exact lane64_d1 _ _
    · omega
  update := fun _ hp => avxUpdate_eq block hp

theorem R_eq_compress (block : Bytes) (s : V8 W64) :
    s.zip (· + ·) (R Spec.Sha512.S0 Spec.Sha512.S1 (data512 block) s 80) = Spec.Sha512.compress s block := rfl

theorem load_data512 (block : Bytes) (hb : block.length = 128) (f : Nat → V128)
    (hf : ∀ i < 8, f i = d (wordBE 64 block (2 * i)) (wordBE 64 block (2 * i + 1))) : V8.ofFn f = (data512 block).xs 0 := by
  have h : ∀ i < 8, f i = D2 block i := by
    intro i hi
    rw [hf i hi, D2, W_lt _ (by omega), W_lt _ (by omega)]
  simp only [V8.ofFn, data512, Nat.zero_add, h 0, h 1, h 2, h 3, h 4, h 5, h 6, h 7, Nat.reduceLT]

theorem get_ofFn8 {α : Type} (f : Nat → α) {i : Nat} (hi : i < 8) : (V8.ofFn f).get i = f i := by
  rcases i with _ | _ | _ | _ | _ | _ | _ | _ | i <;> first | (exfalso; omega) | rfl

theorem get_xs (block : Bytes) {i : Nat} (hi : i < 8) : ((data512 block).xs 0).get i = D2 block i := by
  rw [show (data512 block).xs 0 = V8.ofFn fun i => D2 block (0 + i) from rfl, get_ofFn8 _ hi, Nat.zero_add]

theorem G_eq (block : Bytes) {i : Nat} (hi : i < 8) :
    zip 64 (· + ·) (((data512 block).xs 0).get i) (ldK Sha512.K64 (2 * i)) = (data512 block).G i := by
  rw [get_xs block hi, ldK512_eq (by omega), D2, zip64_d]; rfl

theorem mask_ok : ∀ i < 16, ¬ (lane 8 i MASK).getLsbD 7 ∧ (lane 8 i MASK).toNat % 16 = 8 * (i / 8) + (7 - i % 8) := by
  decide +kernel

theorem avxBlock_eq (s : V8 W64) (block : Bytes) (hb : block.length = 128) :
    avxBlock s block = Spec.Sha512.compress s block := by
  unfold avxBlock
  dsimp only
  rw [load_data512 block hb _ fun i hi => X86.load_be64 block i MASK mask_ok (by omega)]
  refine (blockWith_eq (sound_avx block) s _ fun r hr => ?_).trans (R_eq_compress block s)
  exact (Arr.get_ofFn _ hr).trans (G_eq block hr)

/-! ### Two blocks at a time -/

/-- Both halves of message registers. -/
def pairs (a b : V8 V128) : V8 V256 := V8.ofFn fun i => (a.get i, b.get i)

theorem avx2Update_eq (a b : V8 V128) (k l : V128) :
    avx2Update (pairs a b) (k, l) =
      (pairs (avxUpdate a k).1 (avxUpdate b l).1, ((avxUpdate a k).2, (avxUpdate b l).2)) := rfl

/-- The invariant of the two-block loop: the low halves behave as in the one-block loop. -/
structure Inv2 (A B : Bytes) (s0 : V8 W64) (p : Nat) (v : St2) : Prop where
  low : Inv avxOps (data512 A) s0 p { s := v.s, x := (data512 A).xs p, ms := v.ms, idx := v.idx }
  x : v.x = pairs ((data512 A).xs p) ((data512 B).xs p)
  t2 : ∀ r < p + 8, v.t2.get r = (data512 B).G r

theorem body2_inv {A B : Bytes} {s0 : V8 W64} {i j : Nat} {v : St2} (hi : i < 4) (hj : j < 8)
    (h : Inv2 A B s0 (8 * i + j) v) : Inv2 A B s0 (8 * i + j + 1) (body2 (i + 1) v j) := by
  have hl := body_inv (sound_avx A) (i := i) (j := j) (v := { s := v.s, x := (data512 A).xs (8 * i + j), ms := v.ms, idx := v.idx })
    hi hj h.low
  have hidx : v.idx = 2 * (8 * i + j + 8) := h.low.idx
  have hA := avxUpdate_eq A (p := 8 * i + j) (by omega)
  have hB := avxUpdate_eq B (p := 8 * i + j) (by omega)
  have hu : avx2Update v.x (mm256_set_m128i (ldK Sha512.K64 v.idx) (ldK Sha512.K64 v.idx)) =
      (pairs ((data512 A).xs (8 * i + j + 1)) ((data512 B).xs (8 * i + j + 1)),
        ((data512 A).G (8 * i + j + 8), (data512 B).G (8 * i + j + 8))) := by
    rw [h.x, mm256_set_m128i, avx2Update_eq, hidx, hA, hB]
  have e : body avxOps { s := v.s, x := (data512 A).xs (8 * i + j), ms := v.ms, idx := v.idx } j =
      { s := roundsReg bigSigma0_512 bigSigma1_512 2 v.ms j v.s, x := (data512 A).xs (8 * i + j + 1)
        ms := v.ms.set j ((data512 A).G (8 * i + j + 8)), idx := v.idx + 2 } := by
    unfold body
    have hA' : avxOps.update ((data512 A).xs (8 * i + j)) (ldK avxOps.K v.idx) =
        ((data512 A).xs (8 * i + j + 1), (data512 A).G (8 * i + j + 8)) := by
      rw [hidx]; exact hA
    simp only [hA']
    rfl
  rw [e] at hl
  refine ⟨?_, ?_, ?_⟩
  · unfold body2
    simp only [hu]
    exact hl
  · unfold body2
    simp only [hu]
  · intro r hr
    unfold body2
    simp only [hu]
    rw [Arr.get_set _ _ _ _ (by omega)]
    by_cases hr' : r = 8 * i + j + 8
    · rw [if_pos (by omega), hr']; rfl
    · rw [if_neg (by omega)]; exact h.t2 r (by omega)

theorem inner2_inv {A B : Bytes} {s0 : V8 W64} {i : Nat} {v : St2} (hi : i < 4) (h : Inv2 A B s0 (8 * i) v) :
    ∀ m ≤ 8, Inv2 A B s0 (8 * i + m) ((List.range m).foldl (body2 (i + 1)) v) := by
  intro m
  induction m with
  | zero => intro _; exact h
  | succ m ih =>
    intro hm
    rw [List.range_succ (n := m), List.foldl_append, List.foldl_cons, List.foldl_nil]
    exact body2_inv hi (by omega) (ih (by omega))

theorem mainLoop2_inv {A B : Bytes} {s0 : V8 W64} {v : St2} (h : Inv2 A B s0 0 v) : Inv2 A B s0 32 (mainLoop2 v) := by
  have e : mainLoop2 v = (List.range 8).foldl (body2 4) ((List.range 8).foldl (body2 3)
      ((List.range 8).foldl (body2 2) ((List.range 8).foldl (body2 1) v))) := by
    simp only [mainLoop2, List.foldl_cons, List.foldl_nil]
  rw [e]
  have h1 := inner2_inv (i := 0) (by decide) h 8 (by decide)
  generalize hv : List.foldl (body2 1) v (List.range 8) = v1
  rw [show (0 + 1) = 1 from rfl, hv] at h1
  have h2 := inner2_inv (i := 1) (by decide) h1 8 (by decide)
  generalize hv : List.foldl (body2 2) v1 (List.range 8) = v2
  rw [show (1 + 1) = 2 from rfl, hv] at h2
  have h3 := inner2_inv (i := 2) (by decide) h2 8 (by decide)
  generalize hv : List.foldl (body2 3) v2 (List.range 8) = v3
  rw [show (2 + 1) = 3 from rfl, hv] at h3
  exact inner2_inv (i := 3) (by decide) h3 8 (by decide)

theorem fold_set {n : Nat} (y : Nat → V128) (a : Arr 128 n) : ∀ m ≤ n, ∀ r < m,
    ((List.range m).foldl (fun (a : Arr 128 n) i => a.set i (y i)) a).get r = y r := by
  intro m
  induction m with
  | zero => intro _ r hr; omega
  | succ m ih =>
    intro hm r hr
    rw [List.range_succ (n := m), List.foldl_append, List.foldl_cons, List.foldl_nil, Arr.get_set _ _ _ _ (by omega)]
    by_cases h : r = m
    · rw [if_pos h.symm, h]
    · rw [if_neg (by omega)]; exact ih (by omega) r (by omega)

theorem mask2_ok : ∀ i < 16, ¬ (lane 8 i MASK2.1).getLsbD 7 ∧ (lane 8 i MASK2.1).toNat % 16 = 8 * (i / 8) + (7 - i % 8) := by
  decide +kernel

theorem load_append (A B : Bytes) {i : Nat} (hA : A.length = 128) (hi : i < 8) : load (A ++ B) (16 * i) = load A (16 * i) := by
  apply pack_congr (by decide)
  intro k hk
  rw [List.getD_eq_getElem?_getD, List.getD_eq_getElem?_getD, List.getElem?_append_left (by omega)]

theorem load_append_right (A B : Bytes) (i : Nat) (hA : A.length = 128) : load (A ++ B) (16 * (8 + i)) = load B (16 * i) := by
  apply pack_congr (by decide)
  intro k hk
  rw [List.getD_eq_getElem?_getD, List.getD_eq_getElem?_getD, List.getElem?_append_right (by omega)]
  congr 2
  omega

theorem avx2Pair_eq (v : V8 W64 × V8 V256 × Arr 128 8 × Arr 128 40) (A B : Bytes) (hA : A.length = 128) (hB : B.length = 128) :
    (avx2Pair v (A ++ B)).1 = Spec.Sha512.compress (Spec.Sha512.compress v.1 A) B := by
  obtain ⟨s, x0, ms0, t20⟩ := v
  have hx : (V8.ofFn fun i => mm256_shuffle_epi8
      (mm256_insertf128_si256 (mm256_insertf128_si256 (x0.get i) (load (A ++ B) (16 * (8 + i))) 1) (load (A ++ B) (16 * i)) 0)
      MASK2) = pairs ((data512 A).xs 0) ((data512 B).xs 0) := by
    rw [← load_data512 A hA _ fun i hi => X86.load_be64 A i MASK2.1 mask2_ok (by omega),
      ← load_data512 B hB _ fun i hi => X86.load_be64 B i MASK2.1 mask2_ok (by omega)]
    simp only [pairs, V8.ofFn, V8.get0, V8.get1, V8.get2, V8.get3, V8.get4, V8.get5, V8.get6, V8.get7,
      load_append_right A B _ hA, load_append A B hA, Nat.reduceLT]
    rfl
  unfold avx2Pair
  dsimp only
  rw [hx]
  have hy : ∀ i < 8, mm256_add_epi64 ((pairs ((data512 A).xs 0) ((data512 B).xs 0)).get i)
      (mm256_set_m128i (ldK Sha512.K64 (i * 2)) (ldK Sha512.K64 (i * 2))) = ((data512 A).G i, (data512 B).G i) := by
    intro i hi
    have hp : (pairs ((data512 A).xs 0) ((data512 B).xs 0)).get i = (((data512 A).xs 0).get i, ((data512 B).xs 0).get i) := by
      exact get_ofFn8 _ hi
    rw [hp, Nat.mul_comm i 2, ← G_eq A hi, ← G_eq B hi]
    rfl
  generalize hms : (List.range 8).foldl (fun (a : Arr 128 8) i => a.set i (mm256_extracti128_si256 (mm256_add_epi64
    ((pairs ((data512 A).xs 0) ((data512 B).xs 0)).get i)
      (mm256_set_m128i (ldK Sha512.K64 (i * 2)) (ldK Sha512.K64 (i * 2)))) 0)) ms0 = ms
  generalize ht2 : (List.range 8).foldl (fun (a : Arr 128 40) i => a.set i (mm256_extracti128_si256 (mm256_add_epi64
    ((pairs ((data512 A).xs 0) ((data512 B).xs 0)).get i)
      (mm256_set_m128i (ldK Sha512.K64 (i * 2)) (ldK Sha512.K64 (i * 2)))) 1)) t20 = t2
  have gms : ∀ r < 8, ms.get r = (data512 A).G r := by
    intro r hr
    rw [← hms, fold_set _ _ 8 (by decide) r hr, hy r hr]; rfl
  have gt2 : ∀ r < 8, t2.get r = (data512 B).G r := by
    intro r hr
    rw [← ht2, fold_set _ _ 8 (by decide) r hr, hy r hr]; rfl
  have h0 : Inv2 A B s 0 { s := s, x := pairs ((data512 A).xs 0) ((data512 B).xs 0), ms := ms, t2 := t2, idx := 16 } :=
    ⟨⟨rfl, rfl, fun r _ hr => by
      have hr : r < 0 + 8 := hr
      show ms.get (r % 8) = _
      rw [Nat.mod_eq_of_lt (by omega)]; exact gms r (by omega), rfl⟩, rfl, fun r hr => gt2 r (by omega)⟩
  have h1 := mainLoop2_inv h0
  generalize mainLoop2 { s := s, x := pairs ((data512 A).xs 0) ((data512 B).xs 0), ms := ms, t2 := t2, idx := 16 } = v at h1 ⊢
  have hs : v.s = R bigSigma0_512 bigSigma1_512 (data512 A) s (2 * 32) := h1.low.s
  have l1 := loop_eq bigSigma0_512 bigSigma1_512 (data512 A) 2 (by decide) v.ms s 32 16
    (fun j hj => by
      have := h1.low.ms (32 + j) (by omega) (by show 32 + j < 32 + 8; omega)
      rwa [show (32 + j) % (16 / avxOps.L) = j by show (32 + j) % 8 = j; omega] at this)
    (fun j hj => (sound_avx A).lanes _ (by show 32 + j < 8 * 5; omega))
  have c1 : accumulate s (lastLoop bigSigma0_512 bigSigma1_512 2 v.ms v.s) = Spec.Sha512.compress s A := by
    rw [lastLoop, hs, l1]; exact R_eq_compress A s
  rw [c1]
  have l2 := loop_eq bigSigma0_512 bigSigma1_512 (data512 B) 2 (by decide) v.t2 (Spec.Sha512.compress s A) 0 80
    (fun j hj => by rw [Nat.zero_add]; exact h1.t2 j (by omega))
    (fun j hj => (sound_avx B).lanes _ (by show 0 + j < 8 * 5; omega))
  show accumulate _ (List.foldl _ (R bigSigma0_512 bigSigma1_512 (data512 B) (Spec.Sha512.compress s A) (2 * 0)) _) = _
  rw [l2]
  exact R_eq_compress B _

theorem avx2Pairs_eq : ∀ (n : Nat) (blks : List Bytes) (v : V8 W64 × V8 V256 × Arr 128 8 × Arr 128 40), blks.length = 2 * n →
    (∀ b ∈ blks, b.length = 128) → (avx2Pairs v blks).1 = blks.foldl Spec.Sha512.compress v.1
  | 0, [], v, _, _ => rfl
  | n + 1, a :: b :: rest, v, hn, hb => by
    rw [avx2Pairs, avx2Pairs_eq n rest _ (by simp at hn; omega) (fun c hc => hb c (by simp [hc])),
      avx2Pair_eq v a b (hb a (by simp)) (hb b (by simp))]
    rfl
  | 0, _ :: _, _, hn, _ => by simp at hn
  | n + 1, [], _, hn, _ => by simp at hn
  | n + 1, [_], _, hn, _ => by simp at hn; omega

/-- `sha512_compress_x86_64_avx2` computes the FIPS 180-4 compression function over all blocks. -/
theorem avx2_eq (s : V8 W64) (blks : List Bytes) (hb : ∀ b ∈ blks, b.length = 128) :
    avx2 s blks = blks.foldl Spec.Sha512.compress s := by
  unfold avx2
  by_cases h : blks.length % 2 = 0
  · simp only [h, ne_eq, not_true, if_false, List.drop_zero]
    exact avx2Pairs_eq (blks.length / 2) _ _ (by omega) hb
  · rcases blks with _ | ⟨b, rest⟩
    · simp at h
    · simp only [h, ne_eq, not_false_iff, if_true, List.drop_one, List.tail_cons]
      rw [avx2Pairs_eq (rest.length / 2) _ _ (by simp at h ⊢; omega) (fun c hc => hb c (by simp [hc])),
        show (b :: rest).getD 0 [] = b from rfl, avxBlock_eq s b (hb b (by simp))]
      rfl

/-! ### WebAssembly -/

theorem wshuffle12_d (a b a' b' : W64) : Wasm.u64x2_shuffle 1 2 (d a b) (d a' b') = d b a' := by
  rw [Wasm.u64x2_shuffle, pack64_eq]; simp
theorem wshr_d (a b : W64) (n : Nat) : Wasm.u64x2_shr (d a b) n = d (a >>> (n % 64)) (b >>> (n % 64)) := by
  rw [Wasm.u64x2_shr, map64_d]
theorem wshl_d (a b : W64) (n : Nat) : Wasm.u64x2_shl (d a b) n = d (a <<< (n % 64)) (b <<< (n % 64)) := by
  rw [Wasm.u64x2_shl, map64_d]
theorem wadd_d (a b a' b' : W64) : Wasm.i64x2_add (d a b) (d a' b') = d (a + a') (b + b') := zip64_d ..
theorem wxor_d (a b a' b' : W64) : Wasm.v128_xor (d a b) (d a' b') = d (a ^^^ a') (b ^^^ b') := X86.xor_d ..

theorem wasmUpdate512_eq (block : Bytes) {p : Nat} (h : p < 32) :
    wasmUpdate512 ((data512 block).xs p) (ldK Sha512.K64 (2 * (p + 8))) = ((data512 block).xs (p + 1), (data512 block).G (p + 8)) := by
  obtain ⟨h0, h1⟩ := W_ge' block h
  rw [ldK512_eq (by omega)]
  simp only [data512, V8.ofFn, D2]
  unfold wasmUpdate512
  simp only [wshuffle12_d, wshr_d, wshl_d, wadd_d, wxor_d, Nat.reduceSub, Nat.reduceMod, s0_shifts, s1_shifts,
    Nat.mul_add, Nat.reduceMul, Nat.add_assoc, Nat.reduceAdd, Nat.add_zero, h0, h1]

theorem sound_wasm512 (block : Bytes) : Sound wasmOps512 (data512 block) where
  hL := Or.inl rfl
  lanes := (sound_avx block).lanes
  update := fun _ hp => wasmUpdate512_eq block hp

/-- A byte shuffle of one register that reverses the bytes of each 64-bit lane. -/
theorem wload_be64 (block : Bytes) (j : Nat) (hl : 16 * (j + 1) ≤ block.length) :
    Wasm.i8x16_shuffle swap64 (load block (16 * j)) (load block (16 * j)) =
      d (wordBE 64 block (2 * j)) (wordBE 64 block (2 * j + 1)) := by
  rw [← X86.load_be64 block j MASK mask_ok hl]
  apply pack_congr (by decide)
  intro i hi
  have e : ∀ i < 16, swap64 i = (lane 8 i MASK).toNat % 16 := by decide +kernel
  have hi : i < 16 := by omega
  have hp : swap64 i < 16 := by rw [e i hi]; exact Nat.mod_lt _ (by decide)
  obtain ⟨hn, _⟩ := mask_ok i hi
  rw [if_pos hp, if_neg hn, e i hi]

/-- sha512/wasm32.rs computes the FIPS 180-4 compression function over all blocks. -/
theorem wasm512_eq (s : V8 W64) (blks : List Bytes) (hb : ∀ b ∈ blks, b.length = 128) :
    wasm512 s blks = blks.foldl Spec.Sha512.compress s := by
  induction blks generalizing s with
  | nil => simp only [wasm512, List.foldl_nil]
  | cons b rest ih =>
    have hb1 := hb b (by simp)
    have h : wasmBlock512 s b = Spec.Sha512.compress s b := by
      unfold wasmBlock512
      dsimp only
      rw [load_data512 b hb1 _ fun i hi => wload_be64 b i (by omega)]
      refine (blockWith_eq (sound_wasm512 b) s _ fun r hr => ?_).trans (R_eq_compress b s)
      exact (Arr.get_ofFn _ hr).trans (G_eq b hr)
    show wasm512 (wasmBlock512 s b) rest = _
    rw [ih _ fun c hc => hb c (by simp [hc]), h]
    rfl

end Hashes.Sha2Simd
