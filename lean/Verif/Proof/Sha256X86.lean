import Verif.Model.Sha256X86
import Verif.Proof.X86
import Verif.Proof.Sha256
/- SHA-256, SHA-NI backend: every operation corresponds to one of the soft backend with the lane order reversed. -/
namespace Hashes.Sha256.X86
open Simd Hashes.X86 Spec

/-- A vector of the soft backend as a register: the soft lane 0 is the most significant lane. -/
def m (v : V4 W32) : V128 := q v.x3 v.x2 v.x1 v.x0

theorem rnds2_m (c a : V4 W32) (k0 k1 p q' r s : W32) :
    mm_sha256rnds2_epu32 (m c) (m a) (q k0 k1 p q') = m (sha256DigestRoundX2 c a ⟨r, s, k1, k0⟩) := by
  unfold mm_sha256rnds2_epu32 sha256DigestRoundX2 m
  simp only [lane32_q0, lane32_q1, lane32_q2, lane32_q3, set32_q]
  have e2 : ∀ a b c, bool3ary_202 a b c = ch a b c := ch_alt
  have e0 : ∀ a, bigSigma0 a = sum0 a := fun _ => rfl
  have e1 : ∀ a, bigSigma1 a = sum1 a := fun _ => rfl
  have e3 : ∀ a b c, bool3ary_232 a b c = maj a b c := fun _ _ _ => rfl
  simp only [e0, e1, e2, e3]
  have c1 : ∀ e f g k h : W32, ch e f g + sum1 e + k + h = sum1 e + ch e f g + k + h := by intros; ac_rfl
  have c2 : ∀ X a b c : W32, X + maj a b c + sum0 a = X + (sum0 a + maj a b c) := by intros; ac_rfl
  simp only [c1, c2]

theorem schedule_m (v0 v1 v2 v3 : V4 W32) :
    schedule (m v0) (m v1) (m v2) (m v3) = m (Sha256.schedule v0 v1 v2 v3) := by
  unfold schedule Sha256.schedule m mm_sha256msg1_epu32 mm_sha256msg2_epu32
  simp only [alignr4_q, set32_q, lane32_q0, lane32_q1, lane32_q2, lane32_q3, add32_q]
  rfl

theorem rounds4_m (a c w : V4 W32) (i : Nat) :
    rounds4 (m a, m c) (m w) i = (m (Sha256.rounds4 (a, c) w i).1, m (Sha256.rounds4 (a, c) w i).2) := by
  unfold rounds4 Sha256.rounds4 K32X4
  simp only
  have h : mm_add_epi32 (m w) (mm_set_epi32 (k32 (4 * i + 3)) (k32 (4 * i + 2)) (k32 (4 * i + 1)) (k32 (4 * i))) =
      m (addRoundConst w i) := by
    unfold m addRoundConst
    rw [set32_q, add32_q]
    rfl
  rw [h]
  generalize addRoundConst w i = t
  rw [show mm_sha256rnds2_epu32 (m c) (m a) (m t) = m (sha256DigestRoundX2 c a t) from rnds2_m c a ..]
  rw [show mm_shuffle_epi32 (m t) 0x0E = q t.x1 t.x0 t.x3 t.x3 by
    unfold m; rw [shuffle32_q]; rfl]
  rw [show mm_sha256rnds2_epu32 (m a) (m (sha256DigestRoundX2 c a t)) (q t.x1 t.x0 t.x3 t.x3) =
    m (sha256DigestRoundX2 a (sha256DigestRoundX2 c a t) (sha256swap t)) from rnds2_m ..]

theorem mask_ok : ∀ i < 16, ¬ (lane 8 i MASK).getLsbD 7 ∧ (lane 8 i MASK).toNat % 16 = 4 * (i / 4) + (3 - i % 4) := by
  decide +kernel

theorem load_block (block : Bytes) (hl : block.length = 64) {j : Nat} (hj : j < 4) :
    mm_shuffle_epi8 (load block (16 * j)) MASK = m (wv block (4 * j)) := by
  rw [load_be32 block j MASK id mask_ok (fun _ h => h) (by omega)]
  unfold m wv
  rw [W_lt _ (by omega), W_lt _ (by omega), W_lt _ (by omega), W_lt _ (by omega)]
  rfl

/-- The FIPS state as the two registers. -/
def M (s : V8 W32) : Regs := (m (regs s).1, m (regs s).2)

theorem sched (block : Bytes) {t : Nat} (h : t + 3 < 48) :
    schedule (m (wv block t)) (m (wv block (t + 4))) (m (wv block (t + 8))) (m (wv block (t + 12))) =
      m (wv block (t + 16)) := by
  rw [schedule_m, schedule_eq block h]

theorem rounds (s : V8 W32) (block : Bytes) (i : Nat) :
    rounds4 (M (rounds2 Spec.Sha256.S0 Spec.Sha256.S1 Spec.Sha256.K (W block) (4 * i) s)) (m (wv block (4 * i))) i =
      M (rounds2 Spec.Sha256.S0 Spec.Sha256.S1 Spec.Sha256.K (W block) (4 * i + 4) s) := by
  unfold M
  rw [rounds4_m]
  simp only [Prod.eta, rounds4_eq]

theorem digestBlock_m (s : V8 W32) (block : Bytes) (hl : block.length = 64) :
    digestBlock (M s) block = M (Spec.Sha256.compress s block) := by
  unfold digestBlock
  have l0 := load_block block hl (j := 0) (by decide)
  have l1 := load_block block hl (j := 1) (by decide)
  have l2 := load_block block hl (j := 2) (by decide)
  have l3 := load_block block hl (j := 3) (by decide)
  simp only [Nat.reduceMul] at l0 l1 l2 l3
  simp only [l0, l1, l2, l3]
  have sch := fun t ht => sched block (t := t) ht
  have s0 := sch 0 (by omega); have s4 := sch 4 (by omega); have s8 := sch 8 (by omega)
  have s12 := sch 12 (by omega); have s16 := sch 16 (by omega); have s20 := sch 20 (by omega)
  have s24 := sch 24 (by omega); have s28 := sch 28 (by omega); have s32 := sch 32 (by omega)
  have s36 := sch 36 (by omega); have s40 := sch 40 (by omega); have s44 := sch 44 (by omega)
  simp only [Nat.reduceAdd] at s0 s4 s8 s12 s16 s20 s24 s28 s32 s36 s40 s44
  simp only [s0, s4, s8, s12, s16, s20, s24, s28, s32, s36, s40, s44]
  have r := rounds s block
  have r0 := r 0; have r1 := r 1; have r2 := r 2; have r3 := r 3; have r4 := r 4; have r5 := r 5
  have r6 := r 6; have r7 := r 7; have r8 := r 8; have r9 := r 9; have r10 := r 10; have r11 := r 11
  have r12 := r 12; have r13 := r 13; have r14 := r 14; have r15 := r 15
  simp only [Nat.reduceMul, Nat.reduceAdd] at r0 r1 r2 r3 r4 r5 r6 r7 r8 r9 r10 r11 r12 r13 r14 r15
  rw [show M (rounds2 Spec.Sha256.S0 Spec.Sha256.S1 Spec.Sha256.K (W block) 0 s) = M s from rfl] at r0
  rw [r0, r1, r2, r3, r4, r5, r6, r7, r8, r9, r10, r11, r12, r13, r14, r15]
  rw [show Spec.Sha256.compress s block =
    s.zip (· + ·) (rounds2 Spec.Sha256.S0 Spec.Sha256.S1 Spec.Sha256.K (W block) 64 s) from rfl]
  generalize rounds2 Spec.Sha256.S0 Spec.Sha256.S1 Spec.Sha256.K (W block) 64 s = t
  simp only [M, m, regs, add32_q, V8.zip]
  simp only [BitVec.add_comm]

theorem loadState_m (s : V8 W32) : loadState s = M s := by
  have h : ∀ i < 8, wordLE 32 (bytesOfWordsLE s.toList) i = s.toList.getD i 0 := fun i hi => by
    have := wordLE_append (w := 32) (by decide) s.toList [] 0 (i := i) (by simpa [V8.toList] using hi)
    simpa using this
  have h0 : load (bytesOfWordsLE s.toList) 0 = q s.x0 s.x1 s.x2 s.x3 := by
    have g := fun i hi => lane_load32 (bytesOfWordsLE s.toList) i 0 hi
    exact ext32 ((g 0 (by decide)).trans (h _ (by decide))) ((g 1 (by decide)).trans (h _ (by decide)))
      ((g 2 (by decide)).trans (h _ (by decide))) ((g 3 (by decide)).trans (h _ (by decide)))
  have h1 : load (bytesOfWordsLE s.toList) 16 = q s.x4 s.x5 s.x6 s.x7 := by
    have g := fun i hi => lane_load32 (bytesOfWordsLE s.toList) i 1 hi
    exact ext32 ((g 0 (by decide)).trans (h _ (by decide))) ((g 1 (by decide)).trans (h _ (by decide)))
      ((g 2 (by decide)).trans (h _ (by decide))) ((g 3 (by decide)).trans (h _ (by decide)))
  unfold loadState M
  simp only [h0, h1, shuffle32_q, alignr8_q, blendF0_q]
  rfl

theorem storeState_m (s : V8 W32) : storeState (M s) = s := by
  unfold storeState M m regs
  simp only [shuffle32_q, alignr8_q, blendF0_q]
  have a := fun i (hi : i < 4) => wordLE_store (q s.x0 s.x1 s.x2 s.x3) (store (q s.x4 s.x5 s.x6 s.x7)) hi
  have b := fun i (hi : i < 4) => wordLE_store2 (q s.x0 s.x1 s.x2 s.x3) (q s.x4 s.x5 s.x6 s.x7) hi
  apply V8.ext
  · exact (a 0 (by decide)).trans (by simp)
  · exact (a 1 (by decide)).trans (by simp)
  · exact (a 2 (by decide)).trans (by simp)
  · exact (a 3 (by decide)).trans (by simp)
  · exact (b 0 (by decide)).trans (by simp)
  · exact (b 1 (by decide)).trans (by simp)
  · exact (b 2 (by decide)).trans (by simp)
  · exact (b 3 (by decide)).trans (by simp)

theorem compress_eq (s : V8 W32) (blks : List Bytes) (hb : ∀ b ∈ blks, b.length = 64) :
    compress s blks = blks.foldl Spec.Sha256.compress s := by
  unfold compress
  rw [loadState_m]
  induction blks generalizing s with
  | nil => exact storeState_m s
  | cons b blks ih =>
    rw [List.foldl_cons, digestBlock_m _ _ (hb b (by simp)), ih _ (fun x hx => hb x (by simp [hx])), List.foldl_cons]

end Hashes.Sha256.X86
