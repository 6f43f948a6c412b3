import Verif.Model.Sha1Arm
import Verif.Proof.Arm
import Verif.Proof.Sha1
/- SHA-1, AArch64 backend. -/
namespace Hashes.Sha1.Arm
open Simd Hashes.Arm Spec

/-- Four consecutive schedule words as a register. -/
def wq (block : Bytes) (t : Nat) : V128 := q (W block t) (W block (t + 1)) (W block (t + 2)) (W block (t + 3))

theorem su1_q (a b c e a' b' c' e' : W32) : vsha1su1q_u32 (q a b c e) (q a' b' c' e') =
    q ((a ^^^ b').rotateLeft 1) ((b ^^^ c').rotateLeft 1) ((c ^^^ e').rotateLeft 1)
      (e.rotateLeft 1 ^^^ (a ^^^ b').rotateLeft 2) := by
  unfold vsha1su1q_u32
  have hs : ∀ i < 3, lane 32 i (q a' b' c' e' >>> 32) = lane 32 (i + 1) (q a' b' c' e') := by
    intro i hi
    apply BitVec.eq_of_getLsbD_eq
    intro k hk
    rw [getLsbD_lane, getLsbD_lane, BitVec.getLsbD_ushiftRight, show 32 + (32 * i + k) = 32 * (i + 1) + k by omega]
  have hs3 : lane 32 3 (q a' b' c' e' >>> 32) = 0#32 := by
    apply BitVec.eq_of_getLsbD_eq
    intro k hk
    rw [getLsbD_lane, BitVec.getLsbD_ushiftRight, BitVec.getLsbD_of_ge _ _ (by omega)]
    simp
  have hx : ∀ i (x y : V128), lane 32 i (x ^^^ y) = lane 32 i x ^^^ lane 32 i y := by
    intro i x y
    apply BitVec.eq_of_getLsbD_eq
    intro k hk
    rw [getLsbD_lane, BitVec.getLsbD_xor, BitVec.getLsbD_xor, getLsbD_lane, getLsbD_lane]
    simp [hk]
  simp only [pack32_eq, hx, hs 0 (by decide), hs 1 (by decide), hs 2 (by decide), hs3, lane32_q0, lane32_q1,
    lane32_q2, lane32_q3, Nat.reduceAdd, Nat.reduceLT, if_true, if_false, Nat.lt_irrefl, BitVec.xor_zero]

theorem rotateLeft_xor (x y : W32) (n : Nat) : (x ^^^ y).rotateLeft n = x.rotateLeft n ^^^ y.rotateLeft n := by
  apply BitVec.eq_of_getLsbD_eq
  intro k hk
  simp only [BitVec.getLsbD_rotateLeft, BitVec.getLsbD_xor]
  cases decide (k < n % 32) <;> simp [hk]

theorem rotateLeft_two (x : W32) : (x.rotateLeft 1).rotateLeft 1 = x.rotateLeft 2 := by
  apply BitVec.eq_of_getLsbD_eq
  intro k hk
  simp only [BitVec.getLsbD_rotateLeft]
  have : k = 0 ∨ k = 1 ∨ 2 ≤ k := by omega
  rcases this with h | h | h
  · subst h; simp
  · subst h; simp
  · simp [show ¬ k < 1 by omega, show ¬ k - 1 < 1 by omega, show ¬ k < 2 by omega, hk, show k - 1 < 32 by omega,
      show k - 1 - 1 = k - 2 by omega]

theorem schedule_eq (block : Bytes) {t : Nat} (h : t + 3 < 64) :
    vsha1su1q_u32 (vsha1su0q_u32 (wq block t) (wq block (t + 4)) (wq block (t + 8))) (wq block (t + 12)) =
      wq block (t + 16) := by
  have h0 := W_ge block (t := t) (by omega)
  have h1 := W_ge block (t := t + 1) (by omega)
  have h2 := W_ge block (t := t + 2) (by omega)
  have h3 := W_ge block (t := t + 3) (by omega)
  simp only [Nat.add_assoc, Nat.reduceAdd] at h0 h1 h2 h3
  unfold vsha1su0q_u32 wq
  simp only [pack32_eq, lane32_q0, lane32_q1, lane32_q2, lane32_q3, Nat.add_assoc, Nat.reduceAdd,
    Nat.reduceLT, if_true, if_false, Nat.lt_irrefl, su1_q, Nat.reduceSub]
  have g0 : (W block (t + 2) ^^^ W block t ^^^ W block (t + 8) ^^^ W block (t + 13)).rotateLeft 1 = W block (t + 16) := by
    rw [h0]; congr 1; ac_rfl
  have g1 : (W block (t + 3) ^^^ W block (t + 1) ^^^ W block (t + 9) ^^^ W block (t + 14)).rotateLeft 1 = W block (t + 17) := by
    rw [h1]; congr 1; ac_rfl
  have g2 : (W block (t + 4) ^^^ W block (t + 2) ^^^ W block (t + 10) ^^^ W block (t + 15)).rotateLeft 1 = W block (t + 18) := by
    rw [h2]; congr 1; ac_rfl
  have g3 : (W block (t + 5) ^^^ W block (t + 3) ^^^ W block (t + 11)).rotateLeft 1 ^^^
      (W block (t + 2) ^^^ W block t ^^^ W block (t + 8) ^^^ W block (t + 13)).rotateLeft 2 = W block (t + 19) := by
    rw [← rotateLeft_two, g0, ← rotateLeft_xor, h3]; congr 1; ac_rfl
  rw [g0, g1, g2, g3]

theorem compress_st (s : V5 W32) (block : Bytes) :
    Spec.Sha1.compress s block = s.zip (· + ·) (st block 20 s) := rfl

attribute [local irreducible] W

/-- Registers after `4 n` rounds. -/
def A (block : Bytes) (s : V5 W32) (n : Nat) : V128 :=
  q (st block n s).x0 (st block n s).x1 (st block n s).x2 (st block n s).x3
def E (block : Bytes) (s : V5 W32) (n : Nat) : W32 := (st block n s).x4

theorem hE (block : Bytes) (s : V5 W32) (n : Nat) : vsha1h_u32 (vgetq_lane_u32 (A block s n) 0) = E block s (n + 1) := by
  rw [E, st_e]; simp [vsha1h_u32, vgetq_lane_u32, A]

/-- The instruction used in round group `i`. -/
def op (i : Nat) : V128 → W32 → V128 → V128 :=
  match i with | 0 => vsha1cq_u32 | 1 => vsha1pq_u32 | 2 => vsha1mq_u32 | _ => vsha1pq_u32

theorem op_eq {i : Nat} (hi : i < 4) : op i = sha1Hash (boolF i) := by
  have hc : shaChoose = bool3ary_202 := by
    funext x y z
    show ((y ^^^ z) &&& x) ^^^ z = z ^^^ (x &&& (y ^^^ z))
    rw [BitVec.and_comm, BitVec.xor_comm]
  have hm : shaMajority = bool3ary_232 := by
    funext x y z
    exact maj_alt x y z
  have : i = 0 ∨ i = 1 ∨ i = 2 ∨ i = 3 := by omega
  rcases this with h | h | h | h <;> subst h
  · show sha1Hash shaChoose = _
    rw [hc]; rfl
  · rfl
  · show sha1Hash shaMajority = _
    rw [hm]; rfl
  · rfl

theorem hash4 (F : W32 → W32 → W32 → W32) (k a b c d e w0 w1 w2 w3 : W32) :
    sha1Hash F (q a b c d) e (q (w0 + k) (w1 + k) (w2 + k) (w3 + k)) =
      let r := R F k w3 (R F k w2 (R F k w1 (R F k w0 ⟨a, b, c, d, e⟩)))
      q r.x0 r.x1 r.x2 r.x3 := by
  have step : ∀ (s : V5 W32) w, sha1Step F (s.x4, abcd s) (w + k) = ((R F k w s).x4, abcd (R F k w s)) := by
    intro s w
    simp only [sha1Step, abcd, R]
    rw [show s.x4 + s.x0.rotateLeft 5 + F s.x1 s.x2 s.x3 + (w + k) =
      s.x0.rotateLeft 5 + F s.x1 s.x2 s.x3 + s.x4 + k + w by ac_rfl]
  unfold sha1Hash
  simp only [elems_q, V4.toList, List.foldl_cons, List.foldl_nil]
  rw [show ((e, ⟨a, b, c, d⟩) : W32 × V4 W32) = ((⟨a, b, c, d, e⟩ : V5 W32).x4, abcd ⟨a, b, c, d, e⟩) from rfl,
    step, step, step, step, ofElems_q]
  rfl

theorem hash_eq (block : Bytes) (s : V5 W32) {n i : Nat} (hi : i < 4) (hn : n / 5 = i) :
    op i (A block s n) (E block s n) (vaddq_u32 (wq block (4 * n)) (vdupq_n_u32 (K i))) = A block s (n + 1) := by
  obtain ⟨a0, b0⟩ := f_cases (t := 4 * n) hi (by omega)
  obtain ⟨a1, b1⟩ := f_cases (t := 4 * n + 1) hi (by omega)
  obtain ⟨a2, b2⟩ := f_cases (t := 4 * n + 2) hi (by omega)
  obtain ⟨a3, b3⟩ := f_cases (t := 4 * n + 3) hi (by omega)
  rw [op_eq hi, A, E, A, rounds_four, round_eq _ _ _ a0 b0, round_eq _ _ _ a1 b1, round_eq _ _ _ a2 b2,
    round_eq _ _ _ a3 b3, wq, dup_q, add32_q, hash4]

theorem load_block (block : Bytes) (hl : block.length = 64) {j : Nat} (hj : j < 4) :
    vrev32q_u8 (load block (16 * j)) = wq block (4 * j) := by
  rw [load_be32 block j (by omega), wq,
    W_lt _ (by omega), W_lt _ (by omega), W_lt _ (by omega), W_lt _ (by omega)]

/-- The FIPS state as the two registers. -/
def M (s : V5 W32) : Regs := (q s.x0 s.x1 s.x2 s.x3, s.x4)

theorem digestBlock_eq (s : V5 W32) (block : Bytes) (hl : block.length = 64) :
    digestBlock (M s) block = M (Spec.Sha1.compress s block) := by
  have l0 := load_block block hl (j := 0) (by decide)
  have l1 := load_block block hl (j := 1) (by decide)
  have l2 := load_block block hl (j := 2) (by decide)
  have l3 := load_block block hl (j := 3) (by decide)
  have a0 := hash_eq block s (n := 0) (i := 0) (by decide) (by decide)
  have a1 := hash_eq block s (n := 1) (i := 0) (by decide) (by decide)
  have a2 := hash_eq block s (n := 2) (i := 0) (by decide) (by decide)
  have a3 := hash_eq block s (n := 3) (i := 0) (by decide) (by decide)
  have a4 := hash_eq block s (n := 4) (i := 0) (by decide) (by decide)
  have a5 := hash_eq block s (n := 5) (i := 1) (by decide) (by decide)
  have a6 := hash_eq block s (n := 6) (i := 1) (by decide) (by decide)
  have a7 := hash_eq block s (n := 7) (i := 1) (by decide) (by decide)
  have a8 := hash_eq block s (n := 8) (i := 1) (by decide) (by decide)
  have a9 := hash_eq block s (n := 9) (i := 1) (by decide) (by decide)
  have a10 := hash_eq block s (n := 10) (i := 2) (by decide) (by decide)
  have a11 := hash_eq block s (n := 11) (i := 2) (by decide) (by decide)
  have a12 := hash_eq block s (n := 12) (i := 2) (by decide) (by decide)
  have a13 := hash_eq block s (n := 13) (i := 2) (by decide) (by decide)
  have a14 := hash_eq block s (n := 14) (i := 2) (by decide) (by decide)
  have a15 := hash_eq block s (n := 15) (i := 3) (by decide) (by decide)
  have a16 := hash_eq block s (n := 16) (i := 3) (by decide) (by decide)
  have a17 := hash_eq block s (n := 17) (i := 3) (by decide) (by decide)
  have a18 := hash_eq block s (n := 18) (i := 3) (by decide) (by decide)
  have a19 := hash_eq block s (n := 19) (i := 3) (by decide) (by decide)
  have e0 := hE block s 0
  have e1 := hE block s 1
  have e2 := hE block s 2
  have e3 := hE block s 3
  have e4 := hE block s 4
  have e5 := hE block s 5
  have e6 := hE block s 6
  have e7 := hE block s 7
  have e8 := hE block s 8
  have e9 := hE block s 9
  have e10 := hE block s 10
  have e11 := hE block s 11
  have e12 := hE block s 12
  have e13 := hE block s 13
  have e14 := hE block s 14
  have e15 := hE block s 15
  have e16 := hE block s 16
  have e17 := hE block s 17
  have e18 := hE block s 18
  have e19 := hE block s 19
  have s0 := schedule_eq block (t := 0) (by decide)
  have s4 := schedule_eq block (t := 4) (by decide)
  have s8 := schedule_eq block (t := 8) (by decide)
  have s12 := schedule_eq block (t := 12) (by decide)
  have s16 := schedule_eq block (t := 16) (by decide)
  have s20 := schedule_eq block (t := 20) (by decide)
  have s24 := schedule_eq block (t := 24) (by decide)
  have s28 := schedule_eq block (t := 28) (by decide)
  have s32 := schedule_eq block (t := 32) (by decide)
  have s36 := schedule_eq block (t := 36) (by decide)
  have s40 := schedule_eq block (t := 40) (by decide)
  have s44 := schedule_eq block (t := 44) (by decide)
  have s48 := schedule_eq block (t := 48) (by decide)
  have s52 := schedule_eq block (t := 52) (by decide)
  have s56 := schedule_eq block (t := 56) (by decide)
  have s60 := schedule_eq block (t := 60) (by decide)
  simp only [Nat.reduceAdd, Nat.reduceMul, op] at l0 l1 l2 l3 a0 a1 a2 a3 a4 a5 a6 a7 a8 a9 a10 a11 a12 a13 a14 a15 a16 a17 a18 a19 e0 e1 e2 e3 e4 e5 e6 e7 e8 e9 e10 e11 e12 e13 e14 e15 e16 e17 e18 e19 s0 s4 s8 s12 s16 s20 s24 s28 s32 s36 s40 s44 s48 s52 s56 s60
  rw [show M s = (A block s 0, E block s 0) from rfl]
  unfold digestBlock
  simp only [l0, l1, l2, l3, a0, a1, a2, a3, a4, a5, a6, a7, a8, a9, a10, a11, a12, a13, a14, a15, a16, a17, a18, a19, e0, e1, e2, e3, e4, e5, e6, e7, e8, e9, e10, e11, e12, e13, e14, e15, e16, e17, e18, e19, s0, s4, s8, s12, s16, s20, s24, s28, s32, s36, s40, s44, s48, s52, s56, s60]
  rw [compress_st]
  simp only [A, E, M, add32_q, V5.zip]
  rw [show st block 0 s = s from rfl, BitVec.add_comm _ s.x4]

theorem compress_eq (s : V5 W32) (blks : List Bytes) (hb : ∀ b ∈ blks, b.length = 64) :
    compress s blks = blks.foldl Spec.Sha1.compress s := by
  unfold compress
  have h0 := load_words32 s.toList 0 (by simp [V5.toList])
  simp only [Nat.mul_zero] at h0
  rw [h0]
  dsimp only
  rw [show ((q (s.toList.getD 0 0) (s.toList.getD (0 + 1) 0) (s.toList.getD (0 + 2) 0) (s.toList.getD (0 + 3) 0), s.x4) : Regs)
    = M s from rfl]
  have hf : blks.foldl digestBlock (M s) = M (blks.foldl Spec.Sha1.compress s) := by
    clear h0
    induction blks generalizing s with
    | nil => rfl
    | cons b blks ih =>
      rw [List.foldl_cons, digestBlock_eq _ _ (hb b (by simp)), ih _ (fun x hx => hb x (by simp [hx])), List.foldl_cons]
  rw [hf]
  generalize blks.foldl Spec.Sha1.compress s = t
  have a := fun i (hi : i < 4) => wordLE_store (q t.x0 t.x1 t.x2 t.x3) [] hi
  simp only [List.append_nil] at a
  apply V5.ext
  · exact (a 0 (by decide)).trans (by simp)
  · exact (a 1 (by decide)).trans (by simp)
  · exact (a 2 (by decide)).trans (by simp)
  · exact (a 3 (by decide)).trans (by simp)
  · rfl

end Hashes.Sha1.Arm
