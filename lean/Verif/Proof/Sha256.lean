import Verif.Model.Sha256
import Verif.Proof.Schedule
import Verif.Proof.Md
/- SHA-256: the soft backend computes FIPS 180-4. -/
namespace Hashes
open Spec

theorem ch_alt {w : Nat} (x y z : BitVec w) : z ^^^ (x &&& (y ^^^ z)) = Ch x y z := by
  unfold Ch
  ext i hi
  simp only [BitVec.getElem_xor, BitVec.getElem_and, BitVec.getElem_not]
  cases x[i] <;> cases y[i] <;> cases z[i] <;> rfl

namespace Sha256

/-- Schedule word. -/
def W (block : Bytes) (t : Nat) : W32 := (Spec.Sha256.schedule block).getD t 0

theorem length_schedule (block : Bytes) : (Spec.Sha256.schedule block).length = 64 := by
  simp [Spec.Sha256.schedule, length_expand]

theorem W_lt (block : Bytes) {t : Nat} (h : t < 16) : W block t = wordBE 32 block t := by
  unfold W Spec.Sha256.schedule
  rw [expand_getD_lt _ _ _ _ (by simpa using h)]
  simp [List.getD_eq_getElem?_getD, h]

theorem W_ge (block : Bytes) {t : Nat} (h : t < 48) :
    W block (t + 16) = Spec.Sha256.s1 (W block (t + 14)) + W block (t + 9) +
      Spec.Sha256.s0 (W block (t + 1)) + W block t := by
  have hl := length_schedule block
  unfold W
  conv => lhs; unfold Spec.Sha256.schedule
  rw [expand_getD_ge _ _ _ _ (by simp) (by simp; omega)]
  change Spec.Sha256.s1 (((Spec.Sha256.schedule block).take (t + 16)).reverse.getD 1 0) +
    ((Spec.Sha256.schedule block).take (t + 16)).reverse.getD 6 0 +
    Spec.Sha256.s0 (((Spec.Sha256.schedule block).take (t + 16)).reverse.getD 14 0) +
    ((Spec.Sha256.schedule block).take (t + 16)).reverse.getD 15 0 = _
  rw [getD_reverse_take _ _ (by omega) (by omega), getD_reverse_take _ _ (by omega) (by omega),
    getD_reverse_take _ _ (by omega) (by omega), getD_reverse_take _ _ (by omega) (by omega)]
  rfl

/-- The vector of four consecutive schedule words, newest first. -/
def wv (block : Bytes) (t : Nat) : V4 W32 := ⟨W block (t + 3), W block (t + 2), W block (t + 1), W block t⟩

theorem sigma0_eq (x : W32) :
    ((x >>> 7 ||| x <<< 25) ^^^ (x >>> 18 ||| x <<< 14)) ^^^ x >>> 3 = Spec.Sha256.s0 x := rfl

theorem schedule_eq (block : Bytes) {t : Nat} (h : t + 3 < 48) :
    schedule (wv block t) (wv block (t + 4)) (wv block (t + 8)) (wv block (t + 12)) = wv block (t + 16) := by
  have h0 := W_ge block (t := t) (by omega)
  have h1 := W_ge block (t := t + 1) (by omega)
  have h2 := W_ge block (t := t + 2) (by omega)
  have h3 := W_ge block (t := t + 3) (by omega)
  simp only [Nat.add_assoc, Nat.reduceAdd] at h0 h1 h2 h3
  unfold schedule sha256msg1 sha256msg2 sha256load sigma0x4 add xor or shr shl wv
  simp only [V4.zip, V4.map, Nat.add_assoc, Nat.reduceAdd, sigma0_eq]
  have e : ∀ a, sigma1 a = Spec.Sha256.s1 a := fun _ => rfl
  simp only [e]
  have g0 : W block t + Spec.Sha256.s0 (W block (t + 1)) + W block (t + 9) + Spec.Sha256.s1 (W block (t + 14))
      = W block (t + 16) := by rw [h0]; ac_rfl
  have g1 : W block (t + 1) + Spec.Sha256.s0 (W block (t + 2)) + W block (t + 10) + Spec.Sha256.s1 (W block (t + 15))
      = W block (t + 17) := by rw [h1]; ac_rfl
  have g2 : W block (t + 2) + Spec.Sha256.s0 (W block (t + 3)) + W block (t + 11) + Spec.Sha256.s1 (W block (t + 16))
      = W block (t + 18) := by rw [h2]; ac_rfl
  have g3 : W block (t + 3) + Spec.Sha256.s0 (W block (t + 4)) + W block (t + 12) + Spec.Sha256.s1 (W block (t + 17))
      = W block (t + 19) := by rw [h3]; ac_rfl
  rw [g0, g1, g2, g3]

theorem K_eq : Spec.Sha256.Ks = K32 := by decide +kernel

/-- FIPS state as the two registers of the soft backend. -/
def regs (s : V8 W32) : Regs := (⟨s.x0, s.x1, s.x4, s.x5⟩, ⟨s.x2, s.x3, s.x6, s.x7⟩)

theorem round_x2_eq (a b c d e f g h k0 k1 w0 w1 p q : W32) :
    sha256DigestRoundX2 ⟨c, d, g, h⟩ ⟨a, b, e, f⟩ ⟨p, q, w1 + k1, w0 + k0⟩ =
      let s := round2 Spec.Sha256.S0 Spec.Sha256.S1 k1 w1 (round2 Spec.Sha256.S0 Spec.Sha256.S1 k0 w0 ⟨a, b, c, d, e, f, g, h⟩)
      ⟨s.x0, s.x1, s.x4, s.x5⟩ := by
  have e0 : ∀ a, bigSigma0 a = Spec.Sha256.S0 a := fun _ => rfl
  have e1 : ∀ a, bigSigma1 a = Spec.Sha256.S1 a := fun _ => rfl
  have e2 : ∀ a b c, bool3ary_202 a b c = Ch a b c := ch_alt
  have e3 : ∀ a b c, bool3ary_232 a b c = Maj a b c := fun _ _ _ => rfl
  unfold sha256DigestRoundX2 round2
  simp only [e0, e1, e2, e3]
  have c0 : Spec.Sha256.S1 e + Ch e f g + (w0 + k0) + h = h + Spec.Sha256.S1 e + Ch e f g + k0 + w0 := by ac_rfl
  rw [c0, BitVec.add_comm _ d]
  generalize h + Spec.Sha256.S1 e + Ch e f g + k0 + w0 = T
  have c1 : Spec.Sha256.S1 (d + T) + Ch (d + T) e f + (w1 + k1) + g =
    g + Spec.Sha256.S1 (d + T) + Ch (d + T) e f + k1 + w1 := by ac_rfl
  rw [c1, BitVec.add_comm _ c]

theorem rounds4_eq (s : V8 W32) (block : Bytes) (i : Nat) :
    rounds4 (regs (rounds2 Spec.Sha256.S0 Spec.Sha256.S1 Spec.Sha256.K (W block) (4 * i) s)) (wv block (4 * i)) i =
      regs (rounds2 Spec.Sha256.S0 Spec.Sha256.S1 Spec.Sha256.K (W block) (4 * i + 4) s) := by
  have hk : ∀ n, k32 n = Spec.Sha256.K n := by intro n; simp [k32, Spec.Sha256.K, K_eq]
  conv => rhs; simp only [rounds2]
  generalize rounds2 Spec.Sha256.S0 Spec.Sha256.S1 Spec.Sha256.K (W block) (4 * i) s = s
  unfold rounds4 addRoundConst sha256swap
  simp only [hk, wv, regs, Nat.add_zero]
  rw [round_x2_eq]
  simp only
  rw [show (⟨s.x0, s.x1, s.x4, s.x5⟩ : V4 W32) =
    (let t := round2 Spec.Sha256.S0 Spec.Sha256.S1 (Spec.Sha256.K (4 * i + 1)) (W block (4 * i + 1))
      (round2 Spec.Sha256.S0 Spec.Sha256.S1 (Spec.Sha256.K (4 * i)) (W block (4 * i)) s)
     ⟨t.x2, t.x3, t.x6, t.x7⟩) from rfl]
  simp only
  rw [round_x2_eq]
  rfl

theorem digestBlock_eq (s : V8 W32) (block : Bytes) :
    digestBlockU32 s (toU32s block) = Spec.Sha256.compress s block := by
  have hw : ∀ t, t < 16 → toU32s block t = W block t := fun t ht => (W_lt block ht).symm
  unfold digestBlockU32
  simp only [hw 0 (by omega), hw 1 (by omega), hw 2 (by omega), hw 3 (by omega), hw 4 (by omega),
    hw 5 (by omega), hw 6 (by omega), hw 7 (by omega), hw 8 (by omega), hw 9 (by omega),
    hw 10 (by omega), hw 11 (by omega), hw 12 (by omega), hw 13 (by omega), hw 14 (by omega), hw 15 (by omega)]
  rw [show (⟨W block 3, W block 2, W block 1, W block 0⟩ : V4 W32) = wv block 0 from rfl,
    show (⟨W block 7, W block 6, W block 5, W block 4⟩ : V4 W32) = wv block 4 from rfl,
    show (⟨W block 11, W block 10, W block 9, W block 8⟩ : V4 W32) = wv block 8 from rfl,
    show (⟨W block 15, W block 14, W block 13, W block 12⟩ : V4 W32) = wv block 12 from rfl]
  have sch : ∀ t, t + 3 < 48 → schedule (wv block t) (wv block (t + 4)) (wv block (t + 8)) (wv block (t + 12))
    = wv block (t + 16) := fun t ht => schedule_eq block ht
  have s0 := sch 0 (by omega); have s4 := sch 4 (by omega); have s8 := sch 8 (by omega)
  have s12 := sch 12 (by omega); have s16 := sch 16 (by omega); have s20 := sch 20 (by omega)
  have s24 := sch 24 (by omega); have s28 := sch 28 (by omega); have s32 := sch 32 (by omega)
  have s36 := sch 36 (by omega); have s40 := sch 40 (by omega); have s44 := sch 44 (by omega)
  simp only [Nat.reduceAdd] at s0 s4 s8 s12 s16 s20 s24 s28 s32 s36 s40 s44
  simp only [s0, s4, s8, s12, s16, s20, s24, s28, s32, s36, s40, s44]
  have r := rounds4_eq s block
  have r0 := r 0; have r1 := r 1; have r2 := r 2; have r3 := r 3; have r4 := r 4; have r5 := r 5
  have r6 := r 6; have r7 := r 7; have r8 := r 8; have r9 := r 9; have r10 := r 10; have r11 := r 11
  have r12 := r 12; have r13 := r 13; have r14 := r 14; have r15 := r 15
  simp only [Nat.reduceMul, Nat.reduceAdd] at r0 r1 r2 r3 r4 r5 r6 r7 r8 r9 r10 r11 r12 r13 r14 r15
  rw [show ((⟨s.x0, s.x1, s.x4, s.x5⟩, ⟨s.x2, s.x3, s.x6, s.x7⟩) : Regs) =
    regs (rounds2 Spec.Sha256.S0 Spec.Sha256.S1 Spec.Sha256.K (W block) 0 s) from rfl]
  rw [r0, r1, r2, r3, r4, r5, r6, r7, r8, r9, r10, r11, r12, r13, r14, r15]
  rfl

theorem compressSoft_eq (s : V8 W32) (blks : List Bytes) :
    compressSoft s blks = blks.foldl Spec.Sha256.compress s := by
  simp only [compressSoft, digestBlock_eq]

theorem lawful : varCore.Lawful where
  bs_pos := by decide
  nil := fun s => by
    simp [varCore, updateBlocks, compressSoft]
  app := fun s x y => by
    simp [varCore, updateBlocks, compressSoft, BitVec.ofNat_add, BitVec.add_assoc]
  fin_congr := fun s b b' h h' hc => by
    simp only [varCore, finalizeFull, BlockBuffer.len64PaddingBE]
    rw [pos_congr h h' hc, digestPad_congr (bs := 64) h h' hc (by simp)]

theorem serLawful : varCore.SerLawful where
  bs_le := by decide
  len := fun s => by simp [varCore, serialize, length_bytesOfWordsLE, V8.toList]
  round := fun s => by
    simp only [varCore, serialize, deserialize]
    rw [if_pos (by simp [length_bytesOfWordsLE, V8.toList])]
    have h : ∀ i (hi : i < 8), wordLE 32 (bytesOfWordsLE s.state.toList ++ leBytes 8 s.blockLen.toNat) i =
      s.state.toList.getD i 0 := fun i hi => wordLE_append (by decide) _ _ _ (by simpa [V8.toList] using hi)
    rw [List.drop_left' (by simp [length_bytesOfWordsLE, V8.toList]), counter_round (by decide)]
    simp only [V8.ofFn, h 0 (by decide), h 1 (by decide), h 2 (by decide), h 3 (by decide), h 4 (by decide),
      h 5 (by decide), h 6 (by decide), h 7 (by decide)]
    rfl
  canon := fun raw s h => by
    simp only [varCore, deserialize, serialize] at h ⊢
    split at h
    · rename_i hl
      injection h with h
      subst h
      have : (V8.ofFn (wordLE 32 raw)).toList = (List.range 8).map (wordLE 32 raw) := rfl
      rw [this, bytesOfWordsLE_range (by decide) _ _ (by omega), counter_canon (by decide) (by simp [hl])]
      simp
    · cases h

theorem finalize_chain (iv : V8 W32) (m : Bytes) {b : BlockBuffer} (h1 : b.WF .eager 64)
    (h2 : b.content = m.drop (m.length / 64 * 64)) (h3 : b.pos = m.length % 64) :
    finalizeFull (updateBlocks ⟨iv, 0⟩ (blocks 64 (m.length / 64) m)) b =
      bytesOfWordsBE (Spec.Sha256.chain iv m).toList := by
  simp only [finalizeFull, updateBlocks, compressSoft_eq, BlockBuffer.len64PaddingBE, List.foldl_cons,
    List.foldl_nil, length_blocks, h3]
  rw [show (64 : W64) = BitVec.ofNat 64 64 from rfl, bitLen_eq, beBytes_counter (by decide)]
  rw [Spec.Sha256.chain, Spec.Sha256.pad]
  rw [← md_finalize (by decide) h1 (by simp) _ _ m h2]
  rfl

theorem digest_chain (iv : V8 W32) (n : Nat) (m : Bytes) :
    (varCore.ctWith n ⟨iv, 0⟩).digest m = (bytesOfWordsBE (Spec.Sha256.chain iv m).toList).take n := by
  obtain ⟨b, h1, h2, h3, h4⟩ := Core.digest_eager (lawful.ct n ⟨iv, 0⟩) rfl m
  rw [h4, ← finalize_chain iv m h1 h2 h3]
  rfl

end Sha256
end Hashes
