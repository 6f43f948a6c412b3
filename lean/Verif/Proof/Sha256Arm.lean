import Verif.Model.Sha256Arm
import Verif.Proof.Arm
/- SHA-256, AArch64 backend. -/
namespace Hashes.Sha256.Arm
open Simd Hashes.Arm Spec

/-- Four consecutive schedule words as a register. -/
def wq (block : Bytes) (t : Nat) : V128 := q (W block t) (W block (t + 1)) (W block (t + 2)) (W block (t + 3))

theorem schedule_eq (block : Bytes) {t : Nat} (h : t + 3 < 48) :
    schedule (wq block t) (wq block (t + 4)) (wq block (t + 8)) (wq block (t + 12)) = wq block (t + 16) := by
  have h0 := W_ge block (t := t) (by omega)
  have h1 := W_ge block (t := t + 1) (by omega)
  have h2 := W_ge block (t := t + 2) (by omega)
  have h3 := W_ge block (t := t + 3) (by omega)
  simp only [Nat.add_assoc, Nat.reduceAdd] at h0 h1 h2 h3
  unfold schedule vsha256su1q_u32 vsha256su0q_u32 wq
  simp only [ofElems_q, pack32_eq, lane32_q0, lane32_q1, lane32_q2, lane32_q3, Nat.add_assoc, Nat.reduceAdd,
    Nat.reduceLT, if_true, if_false, Nat.lt_irrefl, Nat.zero_add]
  have e0 : ∀ x : W32, x.rotateRight 7 ^^^ x.rotateRight 18 ^^^ x >>> 3 = Spec.Sha256.s0 x := fun _ => rfl
  have e1 : ∀ x : W32, x.rotateRight 17 ^^^ x.rotateRight 19 ^^^ x >>> 10 = Spec.Sha256.s1 x := fun _ => rfl
  simp only [e0, e1]
  have g0 : Spec.Sha256.s1 (W block (t + 14)) + (Spec.Sha256.s0 (W block (t + 1)) + W block t) + W block (t + 9)
      = W block (t + 16) := by rw [h0]; ac_rfl
  have g1 : Spec.Sha256.s1 (W block (t + 15)) + (Spec.Sha256.s0 (W block (t + 2)) + W block (t + 1)) + W block (t + 10)
      = W block (t + 17) := by rw [h1]; ac_rfl
  have g2 : Spec.Sha256.s1 (W block (t + 16)) + (Spec.Sha256.s0 (W block (t + 3)) + W block (t + 2)) + W block (t + 11)
      = W block (t + 18) := by rw [h2]; ac_rfl
  have g3 : Spec.Sha256.s1 (W block (t + 17)) + (Spec.Sha256.s0 (W block (t + 4)) + W block (t + 3)) + W block (t + 12)
      = W block (t + 19) := by rw [h3]; ac_rfl
  simp [V4.get, g0, g1, g2, g3]

/-- The two halves of the FIPS state. -/
def halves (s : V8 W32) : V4 W32 × V4 W32 := (⟨s.x4, s.x5, s.x6, s.x7⟩, ⟨s.x0, s.x1, s.x2, s.x3⟩)

/-- The FIPS state as the two registers. -/
def M (s : V8 W32) : Regs := (q s.x0 s.x1 s.x2 s.x3, q s.x4 s.x5 s.x6 s.x7)

theorem step_eq (s : V8 W32) (k w : W32) :
    sha256Step (halves s) (w + k) = halves (round2 Spec.Sha256.S0 Spec.Sha256.S1 k w s) := by
  obtain ⟨a, b, c, e, f, g, h, i⟩ := s
  have e0 : ∀ a, shaHashSIGMA0 a = Spec.Sha256.S0 a := fun _ => rfl
  have e1 : ∀ a, shaHashSIGMA1 a = Spec.Sha256.S1 a := fun _ => rfl
  have e2 : ∀ a b c, shaChoose a b c = Ch a b c := fun a b c => by
    rw [← ch_alt, shaChoose, BitVec.and_comm, BitVec.xor_comm]
  have e3 : ∀ a b c, shaMajority a b c = Maj a b c := maj_alt
  simp only [sha256Step, halves, round2, e0, e1, e2, e3]
  rw [show i + Spec.Sha256.S1 f + Ch f g h + (w + k) = i + Spec.Sha256.S1 f + Ch f g h + k + w by ac_rfl]
  rw [BitVec.add_comm _ e]
  simp only [BitVec.add_assoc]

theorem ldK_eq {t : Nat} (h : t + 3 < 64) :
    ldK t = q (Spec.Sha256.K t) (Spec.Sha256.K (t + 1)) (Spec.Sha256.K (t + 2)) (Spec.Sha256.K (t + 3)) := by
  have hl := load_words32 (K32.drop t) 0 (by simp [K32]; omega)
  simp only [Nat.mul_zero] at hl
  rw [ldK, hl]
  have hk : ∀ j, (K32.drop t).getD j 0 = Spec.Sha256.K (t + j) := by
    intro j; simp [Spec.Sha256.K, K_eq, List.getD_eq_getElem?_getD]
  simp only [hk, Nat.add_zero, Nat.zero_add]

theorem rounds4_eq (s : V8 W32) (block : Bytes) {t : Nat} (h : t + 3 < 64) :
    rounds4 (M (rounds2 Spec.Sha256.S0 Spec.Sha256.S1 Spec.Sha256.K (W block) t s)) (wq block t) t =
      M (rounds2 Spec.Sha256.S0 Spec.Sha256.S1 Spec.Sha256.K (W block) (t + 4) s) := by
  conv => rhs; simp only [rounds2]
  generalize rounds2 Spec.Sha256.S0 Spec.Sha256.S1 Spec.Sha256.K (W block) t s = s
  unfold rounds4 vsha256hq_u32 vsha256h2q_u32 sha256Hash
  simp only [ldK_eq h, wq, M, add32_q, elems_q, V4.toList, List.foldl_cons, List.foldl_nil]
  rw [show ((⟨s.x4, s.x5, s.x6, s.x7⟩, ⟨s.x0, s.x1, s.x2, s.x3⟩) : V4 W32 × V4 W32) = halves s from rfl]
  simp only [step_eq, ofElems_q]
  rfl

theorem body_eq (s : V8 W32) (block : Bytes) {t : Nat} (h : t + 31 < 64) :
    body ⟨M (rounds2 Spec.Sha256.S0 Spec.Sha256.S1 Spec.Sha256.K (W block) (t + 16) s), wq block t, wq block (t + 4),
      wq block (t + 8), wq block (t + 12)⟩ (t + 16) =
    ⟨M (rounds2 Spec.Sha256.S0 Spec.Sha256.S1 Spec.Sha256.K (W block) (t + 32) s), wq block (t + 16), wq block (t + 20),
      wq block (t + 24), wq block (t + 28)⟩ := by
  have s0 := schedule_eq block (t := t) (by omega)
  have s1 := schedule_eq block (t := t + 4) (by omega)
  have s2 := schedule_eq block (t := t + 8) (by omega)
  have s3 := schedule_eq block (t := t + 12) (by omega)
  have r0 := rounds4_eq s block (t := t + 16) (by omega)
  have r1 := rounds4_eq s block (t := t + 20) (by omega)
  have r2 := rounds4_eq s block (t := t + 24) (by omega)
  have r3 := rounds4_eq s block (t := t + 28) (by omega)
  simp only [Nat.add_assoc, Nat.reduceAdd] at s0 s1 s2 s3 r0 r1 r2 r3
  simp only [body, Nat.add_assoc, Nat.reduceAdd, s0, s1, s2, s3, r0, r1, r2, r3]

theorem load_block (block : Bytes) (hl : block.length = 64) {j : Nat} (hj : j < 4) :
    vrev32q_u8 (load block (16 * j)) = wq block (4 * j) := by
  rw [load_be32 block j (by omega), wq,
    W_lt _ (by omega), W_lt _ (by omega), W_lt _ (by omega), W_lt _ (by omega)]

theorem digestBlock_eq (s : V8 W32) (block : Bytes) (hl : block.length = 64) :
    digestBlock (M s) block = M (Spec.Sha256.compress s block) := by
  unfold digestBlock
  have l0 := load_block block hl (j := 0) (by decide)
  have l1 := load_block block hl (j := 1) (by decide)
  have l2 := load_block block hl (j := 2) (by decide)
  have l3 := load_block block hl (j := 3) (by decide)
  have r0 : rounds4 (M s) (wq block 0) 0 = _ := rounds4_eq s block (t := 0) (by omega)
  have r1 := rounds4_eq s block (t := 4) (by omega)
  have r2 := rounds4_eq s block (t := 8) (by omega)
  have r3 := rounds4_eq s block (t := 12) (by omega)
  have b0 := body_eq s block (t := 0) (by omega)
  have b1 := body_eq s block (t := 16) (by omega)
  have b2 := body_eq s block (t := 32) (by omega)
  simp only [Nat.reduceMul, Nat.reduceAdd] at l0 l1 l2 l3 r0 r1 r2 r3 b0 b1 b2
  simp only [l0, l1, l2, l3, r0, r1, r2, r3, List.foldl_cons, List.foldl_nil, b0, b1, b2]
  rw [show Spec.Sha256.compress s block =
    s.zip (· + ·) (rounds2 Spec.Sha256.S0 Spec.Sha256.S1 Spec.Sha256.K (W block) 64 s) from rfl]
  generalize rounds2 Spec.Sha256.S0 Spec.Sha256.S1 Spec.Sha256.K (W block) 64 s = t
  simp only [M, add32_q, V8.zip, BitVec.add_comm]

theorem compress_eq (s : V8 W32) (blks : List Bytes) (hb : ∀ b ∈ blks, b.length = 64) :
    compress s blks = blks.foldl Spec.Sha256.compress s := by
  unfold compress
  have h0 := load_words32 s.toList 0 (by simp [V8.toList])
  have h1 := load_words32 s.toList 1 (by simp [V8.toList])
  simp only [Nat.mul_zero, Nat.mul_one] at h0 h1
  simp only [h0, h1]
  rw [show ((q (s.toList.getD 0 0) (s.toList.getD (0 + 1) 0) (s.toList.getD (0 + 2) 0) (s.toList.getD (0 + 3) 0),
    q (s.toList.getD 4 0) (s.toList.getD (4 + 1) 0) (s.toList.getD (4 + 2) 0) (s.toList.getD (4 + 3) 0)) : Regs) = M s from rfl]
  have hf : blks.foldl digestBlock (M s) = M (blks.foldl Spec.Sha256.compress s) := by
    clear h0 h1
    induction blks generalizing s with
    | nil => rfl
    | cons b blks ih =>
      rw [List.foldl_cons, digestBlock_eq _ _ (hb b (by simp)), ih _ (fun x hx => hb x (by simp [hx])), List.foldl_cons]
  rw [hf]
  generalize blks.foldl Spec.Sha256.compress s = t
  have a := fun i (hi : i < 4) => wordLE_store (q t.x0 t.x1 t.x2 t.x3) (store (q t.x4 t.x5 t.x6 t.x7)) hi
  have b := fun i (hi : i < 4) => wordLE_store2 (q t.x0 t.x1 t.x2 t.x3) (q t.x4 t.x5 t.x6 t.x7) hi
  apply V8.ext
  · exact (a 0 (by decide)).trans (by simp)
  · exact (a 1 (by decide)).trans (by simp)
  · exact (a 2 (by decide)).trans (by simp)
  · exact (a 3 (by decide)).trans (by simp)
  · exact (b 0 (by decide)).trans (by simp)
  · exact (b 1 (by decide)).trans (by simp)
  · exact (b 2 (by decide)).trans (by simp)
  · exact (b 3 (by decide)).trans (by simp)

end Hashes.Sha256.Arm
