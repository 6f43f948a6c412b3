import Verif.Model.Sha512Arm
import Verif.Proof.Arm
import Verif.Proof.Sha512
/- SHA-512, AArch64 backend. -/
namespace Hashes.Sha512.Arm
open Simd Hashes.Arm Spec

/-- Two consecutive schedule words as a register. -/
def wd (block : Bytes) (t : Nat) : V128 := d (W block t) (W block (t + 1))

theorem schedule_eq (block : Bytes) {t : Nat} (h : t + 1 < 64) :
    schedule (wd block t) (wd block (t + 2)) (wd block (t + 14)) (wd block (t + 8)) (wd block (t + 10)) =
      wd block (t + 16) := by
  have h0 := W_ge block (t := t) (by omega)
  have h1 := W_ge block (t := t + 1) (by omega)
  simp only [Nat.add_assoc, Nat.reduceAdd] at h0 h1
  unfold schedule vsha512su1q_u64 vsha512su0q_u64 wd
  simp only [ext1_d, pack64_eq, lane64_d0, lane64_d1, Nat.add_assoc, Nat.reduceAdd, if_true, if_false, Nat.one_ne_zero]
  have e0 : ∀ x : W64, x.rotateRight 1 ^^^ x.rotateRight 8 ^^^ x >>> 7 = Spec.Sha512.s0 x := fun _ => rfl
  have e1 : ∀ x : W64, x.rotateRight 19 ^^^ x.rotateRight 61 ^^^ x >>> 6 = Spec.Sha512.s1 x := fun _ => rfl
  simp only [e0, e1, h0, h1]
  congr 1 <;> ac_rfl

theorem ldK_eq {t : Nat} (h : t + 1 < 80) : ldK t = d (Spec.Sha512.K t) (Spec.Sha512.K (t + 1)) := by
  have hl := load_words64 (K64.drop t) 0 (by simp [K64]; omega)
  simp only [Nat.mul_zero] at hl
  rw [ldK, hl]
  have hk : ∀ j, (K64.drop t).getD j 0 = Spec.Sha512.K (t + j) := by
    intro j; simp [Spec.Sha512.K, K_eq, List.getD_eq_getElem?_getD]
  simp only [hk, Nat.add_zero, Nat.zero_add]

/-- The FIPS state before round `n`. -/
def R (block : Bytes) (s : V8 W64) (n : Nat) : V8 W64 :=
  Spec.rounds2 Spec.Sha512.S0 Spec.Sha512.S1 Spec.Sha512.K (W block) n s

theorem R_succ (block : Bytes) (s : V8 W64) (n : Nat) :
    R block s (n + 1) = round2 Spec.Sha512.S0 Spec.Sha512.S1 (Spec.Sha512.K n) (W block n) (R block s n) := rfl

def ab (s : V8 W64) : V128 := d s.x0 s.x1
def cd (s : V8 W64) : V128 := d s.x2 s.x3
def ef (s : V8 W64) : V128 := d s.x4 s.x5
def gh (s : V8 W64) : V128 := d s.x6 s.x7
/-- The FIPS state as the four registers. -/
def M (s : V8 W64) : Regs := ⟨ab s, cd s, ef s, gh s⟩

theorem cd_R (block : Bytes) (s : V8 W64) (n : Nat) : cd (R block s (n + 2)) = ab (R block s n) := rfl
theorem gh_R (block : Bytes) (s : V8 W64) (n : Nat) : gh (R block s (n + 2)) = ef (R block s n) := rfl

theorem maj_comm' (a b c : W64) : (c &&& b) ^^^ (c &&& a) ^^^ (b &&& a) = Maj a b c := by
  unfold Maj
  rw [BitVec.and_comm c b, BitVec.and_comm c a, BitVec.and_comm b a, BitVec.xor_comm (b &&& c), BitVec.xor_assoc,
    BitVec.xor_comm (b &&& c), ← BitVec.xor_assoc, BitVec.xor_comm (a &&& c)]

theorem maj_comm'' (a b c : W64) : (a &&& b) ^^^ (a &&& c) ^^^ (c &&& b) = Maj a b c := by
  unfold Maj; rw [BitVec.and_comm c b]

theorem step2 (block : Bytes) (s : V8 W64) {t : Nat} (h : t + 1 < 80) :
    rounds2 (ab (R block s t)) (cd (R block s t)) (ef (R block s t)) (gh (R block s t)) (wd block t) t =
      (ab (R block s (t + 2)), ef (R block s (t + 2))) := by
  rw [R_succ, R_succ]
  generalize R block s t = s
  obtain ⟨a, b, c, dd, e, f, g, i⟩ := s
  unfold rounds2 vsha512hq_u64 vsha512h2q_u64
  simp only [ldK_eq h, wd, ab, cd, ef, gh, add64_d, ext1_d, pack64_eq, lane64_d0, lane64_d1, if_true, if_false,
    Nat.one_ne_zero, round2]
  have e0 : ∀ x : W64, x.rotateRight 28 ^^^ x.rotateRight 34 ^^^ x.rotateRight 39 = Spec.Sha512.S0 x := fun _ => rfl
  have e1 : ∀ x : W64, x.rotateRight 14 ^^^ x.rotateRight 18 ^^^ x.rotateRight 41 = Spec.Sha512.S1 x := fun _ => rfl
  have e2 : ∀ x y z : W64, (x &&& y) ^^^ (~~~x &&& z) = Ch x y z := fun _ _ _ => rfl
  simp only [e0, e1, e2, maj_comm', maj_comm'']
  have t1 : Ch e f g + Spec.Sha512.S1 e + (W block t + Spec.Sha512.K t + i) =
      i + Spec.Sha512.S1 e + Ch e f g + Spec.Sha512.K t + W block t := by ac_rfl
  rw [t1]
  generalize i + Spec.Sha512.S1 e + Ch e f g + Spec.Sha512.K t + W block t = T1
  rw [BitVec.add_comm T1 dd]
  generalize hE : dd + T1 = E
  have t2 : Ch E e f + Spec.Sha512.S1 E + (W block (t + 1) + Spec.Sha512.K (t + 1) + g) =
      g + Spec.Sha512.S1 E + Ch E e f + Spec.Sha512.K (t + 1) + W block (t + 1) := by ac_rfl
  rw [t2]
  generalize g + Spec.Sha512.S1 E + Ch E e f + Spec.Sha512.K (t + 1) + W block (t + 1) = T2
  have t3 : Maj a b c + Spec.Sha512.S0 a + T1 = T1 + (Spec.Sha512.S0 a + Maj a b c) := by ac_rfl
  rw [t3]
  generalize T1 + (Spec.Sha512.S0 a + Maj a b c) = A
  have t4 : Maj A a b + Spec.Sha512.S0 A + T2 = T2 + (Spec.Sha512.S0 A + Maj A a b) := by ac_rfl
  rw [t4]

theorem step2' (block : Bytes) (s : V8 W64) {t : Nat} (h : t + 3 < 80) :
    rounds2 (ab (R block s (t + 2))) (ab (R block s t)) (ef (R block s (t + 2))) (ef (R block s t)) (wd block (t + 2)) (t + 2) =
      (ab (R block s (t + 4)), ef (R block s (t + 4))) := step2 block s (t := t + 2) (by omega)

theorem rounds8_eq (block : Bytes) (s : V8 W64) {t : Nat} (h : t + 7 < 80) :
    rounds8 (M (R block s t)) (wd block t) (wd block (t + 2)) (wd block (t + 4)) (wd block (t + 6)) t =
      M (R block s (t + 8)) := by
  have r0 := step2 block s (t := t) (by omega)
  have r1 := step2' block s (t := t) (by omega)
  have r2 := step2' block s (t := t + 2) (by omega)
  have r3 := step2' block s (t := t + 4) (by omega)
  simp only [Nat.add_assoc, Nat.reduceAdd] at r0 r1 r2 r3
  simp only [rounds8, M, r0, r1, r2, r3]
  rfl

theorem body_eq (block : Bytes) (s : V8 W64) {t : Nat} (h : t + 31 < 80) :
    body (M (R block s (t + 16)), ⟨wd block t, wd block (t + 2), wd block (t + 4), wd block (t + 6), wd block (t + 8),
      wd block (t + 10), wd block (t + 12), wd block (t + 14)⟩) (t + 16) =
    (M (R block s (t + 32)), ⟨wd block (t + 16), wd block (t + 18), wd block (t + 20), wd block (t + 22),
      wd block (t + 24), wd block (t + 26), wd block (t + 28), wd block (t + 30)⟩) := by
  have s0 := schedule_eq block (t := t) (by omega)
  have s1 := schedule_eq block (t := t + 2) (by omega)
  have s2 := schedule_eq block (t := t + 4) (by omega)
  have s3 := schedule_eq block (t := t + 6) (by omega)
  have s4 := schedule_eq block (t := t + 8) (by omega)
  have s5 := schedule_eq block (t := t + 10) (by omega)
  have s6 := schedule_eq block (t := t + 12) (by omega)
  have s7 := schedule_eq block (t := t + 14) (by omega)
  have r0 := step2 block s (t := t + 16) (by omega)
  have r1 := step2' block s (t := t + 16) (by omega)
  have r2 := step2' block s (t := t + 18) (by omega)
  have r3 := step2' block s (t := t + 20) (by omega)
  have r4 := step2' block s (t := t + 22) (by omega)
  have r5 := step2' block s (t := t + 24) (by omega)
  have r6 := step2' block s (t := t + 26) (by omega)
  have r7 := step2' block s (t := t + 28) (by omega)
  simp only [Nat.add_assoc, Nat.reduceAdd] at s0 s1 s2 s3 s4 s5 s6 s7 r0 r1 r2 r3 r4 r5 r6 r7
  simp only [body, M, Nat.add_assoc, Nat.reduceAdd, s0, s1, s2, s3, s4, s5, s6, s7, r0, r1, r2, r3, r4, r5, r6, r7]
  rfl

theorem load_block (block : Bytes) (hl : block.length = 128) {j : Nat} (hj : j < 8) :
    vrev64q_u8 (load block (16 * j)) = wd block (2 * j) := by
  rw [load_be64 block j (by omega), wd, W_lt _ (by omega), W_lt _ (by omega)]

theorem digestBlock_eq (s : V8 W64) (block : Bytes) (hl : block.length = 128) :
    digestBlock (M s) block = M (Spec.Sha512.compress s block) := by
  unfold digestBlock
  have hw : V8.ofFn (fun i => vrev64q_u8 (load block (16 * i))) =
      (⟨wd block 0, wd block 2, wd block 4, wd block 6, wd block 8, wd block 10, wd block 12, wd block 14⟩ : V8 V128) := by
    apply V8.ext <;> exact load_block block hl (by decide)
  have r0 : rounds8 (M s) (wd block 0) (wd block 2) (wd block 4) (wd block 6) 0 = _ :=
    rounds8_eq block s (t := 0) (by omega)
  have r1 := rounds8_eq block s (t := 8) (by omega)
  have b0 := body_eq block s (t := 0) (by omega)
  have b1 := body_eq block s (t := 16) (by omega)
  have b2 := body_eq block s (t := 32) (by omega)
  have b3 := body_eq block s (t := 48) (by omega)
  simp only [Nat.reduceAdd] at r0 r1 b0 b1 b2 b3
  simp only [hw, r0, r1, List.foldl_cons, List.foldl_nil, b0, b1, b2, b3]
  rw [show Spec.Sha512.compress s block = s.zip (· + ·) (R block s 80) from rfl]
  generalize R block s 80 = t
  simp only [M, ab, cd, ef, gh, add64_d, V8.zip, BitVec.add_comm]

theorem compress_eq (s : V8 W64) (blks : List Bytes) (hb : ∀ b ∈ blks, b.length = 128) :
    compress s blks = blks.foldl Spec.Sha512.compress s := by
  unfold compress
  have h0 := load_words64 s.toList 0 (by simp [V8.toList])
  have h1 := load_words64 s.toList 1 (by simp [V8.toList])
  have h2 := load_words64 s.toList 2 (by simp [V8.toList])
  have h3 := load_words64 s.toList 3 (by simp [V8.toList])
  simp only [Nat.reduceMul] at h0 h1 h2 h3
  simp only [h0, h1, h2, h3]
  rw [show ((⟨d (s.toList.getD 0 0) (s.toList.getD (0 + 1) 0), d (s.toList.getD 2 0) (s.toList.getD (2 + 1) 0),
    d (s.toList.getD 4 0) (s.toList.getD (4 + 1) 0), d (s.toList.getD 6 0) (s.toList.getD (6 + 1) 0)⟩) : Regs) = M s from rfl]
  have hf : blks.foldl digestBlock (M s) = M (blks.foldl Spec.Sha512.compress s) := by
    clear h0 h1 h2 h3
    induction blks generalizing s with
    | nil => rfl
    | cons b blks ih =>
      rw [List.foldl_cons, digestBlock_eq _ _ (hb b (by simp)), ih _ (fun x hx => hb x (by simp [hx])), List.foldl_cons]
  rw [hf]
  generalize blks.foldl Spec.Sha512.compress s = t
  rw [words64_stores]
  simp [M, ab, cd, ef, gh]

end Hashes.Sha512.Arm
