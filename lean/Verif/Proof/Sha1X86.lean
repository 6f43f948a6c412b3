import Verif.Model.Sha1X86
import Verif.Proof.X86
import Verif.Proof.Sha1
/- SHA-1, SHA-NI backend: every operation corresponds to one of the soft backend with the lane order reversed. -/
namespace Hashes.Sha1.X86
open Simd Hashes.X86 Spec

/-- A vector of the soft backend as a register: the soft lane 0 is the most significant lane. -/
def m (v : V4 W32) : V128 := q v.x3 v.x2 v.x1 v.x0

theorem schedule_m (v0 v1 v2 v3 : V4 W32) :
    schedule (m v0) (m v1) (m v2) (m v3) = m (scheduleM v0 v1 v2 v3) := by
  unfold schedule scheduleM m mm_sha1msg1_epu32 mm_sha1msg2_epu32 Sha1.sha1msg1 Sha1.sha1msg2 Sha1.xor
  simp only [set32_q, lane32_q0, lane32_q1, lane32_q2, lane32_q3, xor_q, V4.zip]
  rw [BitVec.xor_comm v0.x2 v0.x0, BitVec.xor_comm v0.x3 v0.x1, BitVec.xor_comm v1.x0 v0.x2, BitVec.xor_comm v1.x1 v0.x3]

theorem f_eq {i : Nat} (hi : i < 4) (b c d : W32) : sha1f i b c d = boolF i b c d := by
  have : i = 0 ∨ i = 1 ∨ i = 2 ∨ i = 3 := by omega
  rcases this with h | h | h | h <;> subst h
  · exact (ch_alt b c d).symm
  · rfl
  · rfl
  · rfl

theorem k_eq {i : Nat} (hi : i < 4) : sha1k i = K i := by
  have : i = 0 ∨ i = 1 ∨ i = 2 ∨ i = 3 := by omega
  rcases this with h | h | h | h <;> subst h <;> rfl

theorem rnds4_m (a w : V4 W32) {i : Nat} (hi : i < 4) :
    mm_sha1rnds4_epu32 (m a) (m w) i = m (digestRoundX4 a w i) := by
  rw [digestRoundX4_unfold _ _ hi]
  unfold mm_sha1rnds4_epu32 m rnds4
  simp only [lane32_q0, lane32_q1, lane32_q2, lane32_q3, set32_q, f_eq hi, k_eq hi]
  obtain ⟨a, b, c, d⟩ := a
  obtain ⟨t, u, v, w⟩ := w
  simp only
  generalize boolF i = F
  generalize K i = k
  have z : ∀ x : W32, 0 + x = x := fun x => by simp
  rw [z]
  rw [show F b c d + a.rotateLeft 5 + t + k = a.rotateLeft 5 + F b c d + (t + k) by ac_rfl]
  generalize a.rotateLeft 5 + F b c d + (t + k) = t1
  generalize b.rotateLeft 30 = b
  rw [show F a b c + t1.rotateLeft 5 + u + d + k = d + t1.rotateLeft 5 + F a b c + (u + k) by ac_rfl]
  generalize d + t1.rotateLeft 5 + F a b c + (u + k) = t2
  generalize a.rotateLeft 30 = a
  rw [show F t1 a b + t2.rotateLeft 5 + v + c + k = c + t2.rotateLeft 5 + F t1 a b + (v + k) by ac_rfl]
  generalize c + t2.rotateLeft 5 + F t1 a b + (v + k) = t3
  generalize t1.rotateLeft 30 = t1
  rw [show F t2 t1 a + t3.rotateLeft 5 + w + b + k = b + t3.rotateLeft 5 + F t2 t1 a + (w + k) by ac_rfl]

theorem rounds4_m (h0 h1 wk : V4 W32) {i : Nat} (hi : i < 4) :
    rounds4 (m h0) (m h1) (m wk) i = m (Sha1.rounds4 h0 h1 wk i) := by
  unfold rounds4 Sha1.rounds4 firstHalf firstAdd
  rw [← rnds4_m _ _ hi]
  congr 1
  unfold m mm_sha1nexte_epu32
  simp only [set32_q, lane32_q0, lane32_q1, lane32_q2, lane32_q3, BitVec.add_comm]

theorem first_m (e : W32) (w : V4 W32) : mm_add_epi32 (q 0 0 0 e) (m w) = m (firstAdd e w) := by
  simp [m, add32_q, firstAdd]

theorem mask_ok : ∀ i < 16, ¬ (lane 8 i MASK).getLsbD 7 ∧
    (lane 8 i MASK).toNat % 16 = 4 * (fun t => 3 - t) (i / 4) + (3 - i % 4) := by
  decide +kernel

theorem load_block (block : Bytes) (hl : block.length = 64) {j : Nat} (hj : j < 4) :
    mm_shuffle_epi8 (load block (16 * j)) MASK = m (wv block (4 * j)) := by
  rw [load_be32 block j MASK (fun t => 3 - t) mask_ok (fun _ h => by omega) (by omega)]
  unfold m wv
  rw [W_lt _ (by omega), W_lt _ (by omega), W_lt _ (by omega), W_lt _ (by omega)]
  rfl

theorem compress_st (s : V5 W32) (block : Bytes) :
    Spec.Sha1.compress s block = s.zip (· + ·) (st block 20 s) := rfl

attribute [local irreducible] W

/-- The FIPS state as the two registers. -/
def M (s : V5 W32) : Regs := (m (abcd s), q 0 0 0 s.x4)

theorem digestBlock_m (s : V5 W32) (block : Bytes) (hl : block.length = 64) :
    digestBlock (M s) block = M (Spec.Sha1.compress s block) := by
  unfold digestBlock
  extract_lets a0 e0 v0 v4 v8 v12 g0 f0 g1 g2 g3 g4 v16 g5 v20 g6 v24 g7 v28 g8 v32 g9 v36 g10 v40 g11 v44 g12 v48 g13 v52 g14 v56 g15 v60 g16 v64 g17 v68 g18 v72 g19 v76 g20
  have hv0 : v0 = m (wv block 0) := load_block block hl (j := 0) (by decide)
  have hv4 : v4 = m (wv block 4) := load_block block hl (j := 1) (by decide)
  have hv8 : v8 = m (wv block 8) := load_block block hl (j := 2) (by decide)
  have hv12 : v12 = m (wv block 12) := load_block block hl (j := 3) (by decide)
  have hg0 : g0 = m (abcd (st block 0 s)) := rfl
  have hg1 : g1 = m (abcd (st block 1 s)) := by
    rw [show g1 = mm_sha1rnds4_epu32 (m (abcd s)) (mm_add_epi32 (q 0 0 0 s.x4) v0) 0 from rfl, hv0, first_m, rnds4_m _ _ (by decide)]
    rw [rounds_four block 0]
    exact congrArg m (roundX4_eq (block := block) (n := 0) 0 (by omega) (by omega) (st block 0 s))
  have hg2 : g2 = m (abcd (st block 2 s)) := by
    rw [show g2 = rounds4 g1 g0 v4 0 from rfl, hv4, hg1, hg0, rounds4_m _ _ _ (by decide)]
    exact congrArg m (rounds4_eq 1 0 (by omega) (by omega) s)
  have hg3 : g3 = m (abcd (st block 3 s)) := by
    rw [show g3 = rounds4 g2 g1 v8 0 from rfl, hv8, hg2, hg1, rounds4_m _ _ _ (by decide)]
    exact congrArg m (rounds4_eq 2 0 (by omega) (by omega) s)
  have hg4 : g4 = m (abcd (st block 4 s)) := by
    rw [show g4 = rounds4 g3 g2 v12 0 from rfl, hv12, hg3, hg2, rounds4_m _ _ _ (by decide)]
    exact congrArg m (rounds4_eq 3 0 (by omega) (by omega) s)
  have hv16 : v16 = m (wv block 16) := by
    rw [show v16 = schedule v0 v4 v8 v12 from rfl, hv0, hv4, hv8, hv12, schedule_m]
    exact congrArg m (schedule_eq block (by omega))
  have hg5 : g5 = m (abcd (st block 5 s)) := by
    rw [show g5 = rounds4 g4 g3 v16 0 from rfl, hv16, hg4, hg3, rounds4_m _ _ _ (by decide)]
    exact congrArg m (rounds4_eq 4 0 (by omega) (by omega) s)
  have hv20 : v20 = m (wv block 20) := by
    rw [show v20 = schedule v4 v8 v12 v16 from rfl, hv4, hv8, hv12, hv16, schedule_m]
    exact congrArg m (schedule_eq block (by omega))
  have hg6 : g6 = m (abcd (st block 6 s)) := by
    rw [show g6 = rounds4 g5 g4 v20 1 from rfl, hv20, hg5, hg4, rounds4_m _ _ _ (by decide)]
    exact congrArg m (rounds4_eq 5 1 (by omega) (by omega) s)
  have hv24 : v24 = m (wv block 24) := by
    rw [show v24 = schedule v8 v12 v16 v20 from rfl, hv8, hv12, hv16, hv20, schedule_m]
    exact congrArg m (schedule_eq block (by omega))
  have hg7 : g7 = m (abcd (st block 7 s)) := by
    rw [show g7 = rounds4 g6 g5 v24 1 from rfl, hv24, hg6, hg5, rounds4_m _ _ _ (by decide)]
    exact congrArg m (rounds4_eq 6 1 (by omega) (by omega) s)
  have hv28 : v28 = m (wv block 28) := by
    rw [show v28 = schedule v12 v16 v20 v24 from rfl, hv12, hv16, hv20, hv24, schedule_m]
    exact congrArg m (schedule_eq block (by omega))
  have hg8 : g8 = m (abcd (st block 8 s)) := by
    rw [show g8 = rounds4 g7 g6 v28 1 from rfl, hv28, hg7, hg6, rounds4_m _ _ _ (by decide)]
    exact congrArg m (rounds4_eq 7 1 (by omega) (by omega) s)
  have hv32 : v32 = m (wv block 32) := by
    rw [show v32 = schedule v16 v20 v24 v28 from rfl, hv16, hv20, hv24, hv28, schedule_m]
    exact congrArg m (schedule_eq block (by omega))
  have hg9 : g9 = m (abcd (st block 9 s)) := by
    rw [show g9 = rounds4 g8 g7 v32 1 from rfl, hv32, hg8, hg7, rounds4_m _ _ _ (by decide)]
    exact congrArg m (rounds4_eq 8 1 (by omega) (by omega) s)
  have hv36 : v36 = m (wv block 36) := by
    rw [show v36 = schedule v20 v24 v28 v32 from rfl, hv20, hv24, hv28, hv32, schedule_m]
    exact congrArg m (schedule_eq block (by omega))
  have hg10 : g10 = m (abcd (st block 10 s)) := by
    rw [show g10 = rounds4 g9 g8 v36 1 from rfl, hv36, hg9, hg8, rounds4_m _ _ _ (by decide)]
    exact congrArg m (rounds4_eq 9 1 (by omega) (by omega) s)
  have hv40 : v40 = m (wv block 40) := by
    rw [show v40 = schedule v24 v28 v32 v36 from rfl, hv24, hv28, hv32, hv36, schedule_m]
    exact congrArg m (schedule_eq block (by omega))
  have hg11 : g11 = m (abcd (st block 11 s)) := by
    rw [show g11 = rounds4 g10 g9 v40 2 from rfl, hv40, hg10, hg9, rounds4_m _ _ _ (by decide)]
    exact congrArg m (rounds4_eq 10 2 (by omega) (by omega) s)
  have hv44 : v44 = m (wv block 44) := by
    rw [show v44 = schedule v28 v32 v36 v40 from rfl, hv28, hv32, hv36, hv40, schedule_m]
    exact congrArg m (schedule_eq block (by omega))
  have hg12 : g12 = m (abcd (st block 12 s)) := by
    rw [show g12 = rounds4 g11 g10 v44 2 from rfl, hv44, hg11, hg10, rounds4_m _ _ _ (by decide)]
    exact congrArg m (rounds4_eq 11 2 (by omega) (by omega) s)
  have hv48 : v48 = m (wv block 48) := by
    rw [show v48 = schedule v32 v36 v40 v44 from rfl, hv32, hv36, hv40, hv44, schedule_m]
    exact congrArg m (schedule_eq block (by omega))
  have hg13 : g13 = m (abcd (st block 13 s)) := by
    rw [show g13 = rounds4 g12 g11 v48 2 from rfl, hv48, hg12, hg11, rounds4_m _ _ _ (by decide)]
    exact congrArg m (rounds4_eq 12 2 (by omega) (by omega) s)
  have hv52 : v52 = m (wv block 52) := by
    rw [show v52 = schedule v36 v40 v44 v48 from rfl, hv36, hv40, hv44, hv48, schedule_m]
    exact congrArg m (schedule_eq block (by omega))
  have hg14 : g14 = m (abcd (st block 14 s)) := by
    rw [show g14 = rounds4 g13 g12 v52 2 from rfl, hv52, hg13, hg12, rounds4_m _ _ _ (by decide)]
    exact congrArg m (rounds4_eq 13 2 (by omega) (by omega) s)
  have hv56 : v56 = m (wv block 56) := by
    rw [show v56 = schedule v40 v44 v48 v52 from rfl, hv40, hv44, hv48, hv52, schedule_m]
    exact congrArg m (schedule_eq block (by omega))
  have hg15 : g15 = m (abcd (st block 15 s)) := by
    rw [show g15 = rounds4 g14 g13 v56 2 from rfl, hv56, hg14, hg13, rounds4_m _ _ _ (by decide)]
    exact congrArg m (rounds4_eq 14 2 (by omega) (by omega) s)
  have hv60 : v60 = m (wv block 60) := by
    rw [show v60 = schedule v44 v48 v52 v56 from rfl, hv44, hv48, hv52, hv56, schedule_m]
    exact congrArg m (schedule_eq block (by omega))
  have hg16 : g16 = m (abcd (st block 16 s)) := by
    rw [show g16 = rounds4 g15 g14 v60 3 from rfl, hv60, hg15, hg14, rounds4_m _ _ _ (by decide)]
    exact congrArg m (rounds4_eq 15 3 (by omega) (by omega) s)
  have hv64 : v64 = m (wv block 64) := by
    rw [show v64 = schedule v48 v52 v56 v60 from rfl, hv48, hv52, hv56, hv60, schedule_m]
    exact congrArg m (schedule_eq block (by omega))
  have hg17 : g17 = m (abcd (st block 17 s)) := by
    rw [show g17 = rounds4 g16 g15 v64 3 from rfl, hv64, hg16, hg15, rounds4_m _ _ _ (by decide)]
    exact congrArg m (rounds4_eq 16 3 (by omega) (by omega) s)
  have hv68 : v68 = m (wv block 68) := by
    rw [show v68 = schedule v52 v56 v60 v64 from rfl, hv52, hv56, hv60, hv64, schedule_m]
    exact congrArg m (schedule_eq block (by omega))
  have hg18 : g18 = m (abcd (st block 18 s)) := by
    rw [show g18 = rounds4 g17 g16 v68 3 from rfl, hv68, hg17, hg16, rounds4_m _ _ _ (by decide)]
    exact congrArg m (rounds4_eq 17 3 (by omega) (by omega) s)
  have hv72 : v72 = m (wv block 72) := by
    rw [show v72 = schedule v56 v60 v64 v68 from rfl, hv56, hv60, hv64, hv68, schedule_m]
    exact congrArg m (schedule_eq block (by omega))
  have hg19 : g19 = m (abcd (st block 19 s)) := by
    rw [show g19 = rounds4 g18 g17 v72 3 from rfl, hv72, hg18, hg17, rounds4_m _ _ _ (by decide)]
    exact congrArg m (rounds4_eq 18 3 (by omega) (by omega) s)
  have hv76 : v76 = m (wv block 76) := by
    rw [show v76 = schedule v60 v64 v68 v72 from rfl, hv60, hv64, hv68, hv72, schedule_m]
    exact congrArg m (schedule_eq block (by omega))
  have hg20 : g20 = m (abcd (st block 20 s)) := by
    rw [show g20 = rounds4 g19 g18 v76 3 from rfl, hv76, hg19, hg18, rounds4_m _ _ _ (by decide)]
    exact congrArg m (rounds4_eq 19 3 (by omega) (by omega) s)
  rw [show a0 = m (abcd s) from rfl, show e0 = q 0 0 0 s.x4 from rfl, hg20, hg19]
  rw [show Spec.Sha1.compress s block = s.zip (· + ·) (st block 20 s) from compress_st s block]
  have he := st_e block 19 s
  unfold M mm_sha1nexte_epu32
  simp only [m, abcd, add32_q, lane32_q0, lane32_q1, lane32_q2, lane32_q3, set32_q, V5.zip, he]

theorem compress_eq (s : V5 W32) (blks : List Bytes) (hb : ∀ b ∈ blks, b.length = 64) :
    compress s blks = blks.foldl Spec.Sha1.compress s := by
  unfold compress
  have h0 := load_words32 s.toList 0 (by simp [V5.toList])
  simp only [Nat.mul_zero] at h0
  rw [h0]
  dsimp only
  rw [show (mm_shuffle_epi32 (q (s.toList.getD 0 0) (s.toList.getD (0 + 1) 0) (s.toList.getD (0 + 2) 0)
    (s.toList.getD (0 + 3) 0)) 0b00011011, mm_set_epi32 s.x4 0 0 0) = M s by rw [shuffle32_q, set32_q]; rfl]
  have hf : blks.foldl digestBlock (M s) = M (blks.foldl Spec.Sha1.compress s) := by
    clear h0
    induction blks generalizing s with
    | nil => rfl
    | cons b blks ih =>
      rw [List.foldl_cons, digestBlock_m _ _ (hb b (by simp)), ih _ (fun x hx => hb x (by simp [hx])), List.foldl_cons]
  rw [hf]
  generalize blks.foldl Spec.Sha1.compress s = t
  simp only [M, m, shuffle32_q, abcd]
  have a := fun i (hi : i < 4) => wordLE_store (q t.x0 t.x1 t.x2 t.x3) [] hi
  simp only [List.append_nil] at a
  apply V5.ext
  · exact (a 0 (by decide)).trans (by simp)
  · exact (a 1 (by decide)).trans (by simp)
  · exact (a 2 (by decide)).trans (by simp)
  · exact (a 3 (by decide)).trans (by simp)
  · exact lane32_q3 ..

end Hashes.Sha1.X86
