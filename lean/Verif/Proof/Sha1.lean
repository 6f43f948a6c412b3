import Verif.Model.Sha1
import Verif.Proof.Sha256
/- SHA-1: the soft backend computes FIPS 180-4. -/
namespace Hashes
open Spec
namespace Sha1

/-- Schedule word. -/
def W (block : Bytes) (t : Nat) : W32 := (Spec.Sha1.schedule block).getD t 0

theorem length_schedule (block : Bytes) : (Spec.Sha1.schedule block).length = 80 := by
  simp [Spec.Sha1.schedule, length_expand]

theorem W_lt (block : Bytes) {t : Nat} (h : t < 16) : W block t = wordBE 32 block t := by
  unfold W Spec.Sha1.schedule
  rw [expand_getD_lt _ _ _ _ (by simpa using h)]
  simp [List.getD_eq_getElem?_getD, h]

theorem W_ge (block : Bytes) {t : Nat} (h : t < 64) :
    W block (t + 16) = (W block (t + 13) ^^^ W block (t + 8) ^^^ W block (t + 2) ^^^ W block t).rotateLeft 1 := by
  have hl := length_schedule block
  unfold W
  conv => lhs; unfold Spec.Sha1.schedule
  rw [expand_getD_ge _ _ _ _ (by simp) (by simp; omega)]
  change (((Spec.Sha1.schedule block).take (t + 16)).reverse.getD 2 0 ^^^
    ((Spec.Sha1.schedule block).take (t + 16)).reverse.getD 7 0 ^^^
    ((Spec.Sha1.schedule block).take (t + 16)).reverse.getD 13 0 ^^^
    ((Spec.Sha1.schedule block).take (t + 16)).reverse.getD 15 0).rotateLeft 1 = _
  rw [getD_reverse_take _ _ (by omega) (by omega), getD_reverse_take _ _ (by omega) (by omega),
    getD_reverse_take _ _ (by omega) (by omega), getD_reverse_take _ _ (by omega) (by omega)]
  rfl

/-- Four consecutive schedule words. -/
def wv (block : Bytes) (t : Nat) : V4 W32 := ⟨W block t, W block (t + 1), W block (t + 2), W block (t + 3)⟩

theorem schedule_eq (block : Bytes) {t : Nat} (h : t + 3 < 64) :
    scheduleM (wv block t) (wv block (t + 4)) (wv block (t + 8)) (wv block (t + 12)) = wv block (t + 16) := by
  have h0 := W_ge block (t := t) (by omega)
  have h1 := W_ge block (t := t + 1) (by omega)
  have h2 := W_ge block (t := t + 2) (by omega)
  have h3 := W_ge block (t := t + 3) (by omega)
  simp only [Nat.add_assoc, Nat.reduceAdd] at h0 h1 h2 h3
  unfold scheduleM sha1msg2 sha1msg1 xor wv
  simp only [V4.zip, Nat.add_assoc, Nat.reduceAdd]
  have g0 : (W block t ^^^ W block (t + 2) ^^^ W block (t + 8) ^^^ W block (t + 13)).rotateLeft 1 = W block (t + 16) := by
    rw [h0]; congr 1; ac_rfl
  rw [g0, h1, h2, h3]
  congr 2 <;> ac_rfl

/-- The first four chaining words. -/
def abcd (s : V5 W32) : V4 W32 := ⟨s.x0, s.x1, s.x2, s.x3⟩

/-- FIPS state after `4 n` rounds. -/
def st (block : Bytes) (n : Nat) (s : V5 W32) : V5 W32 := Spec.Sha1.rounds (W block) (4 * n) s

/-- One FIPS round with explicit function and constant. -/
def R (F : W32 → W32 → W32 → W32) (k w : W32) (s : V5 W32) : V5 W32 :=
  ⟨s.x0.rotateLeft 5 + F s.x1 s.x2 s.x3 + s.x4 + k + w, s.x0, s.x1.rotateLeft 30, s.x2, s.x3⟩

attribute [local irreducible] W

theorem rnds4_eq (F : W32 → W32 → W32 → W32) (k a b c d e w0 w1 w2 w3 : W32) :
    rnds4 F ⟨a, b, c, d⟩ ⟨e + w0 + k, w1 + k, w2 + k, w3 + k⟩ =
      abcd (R F k w3 (R F k w2 (R F k w1 (R F k w0 ⟨a, b, c, d, e⟩)))) := by
  simp only [rnds4, abcd, R]
  have z : ∀ x : W32, 0 + x = x := fun x => by simp
  rw [z]
  rw [show a.rotateLeft 5 + F b c d + (e + w0 + k) = a.rotateLeft 5 + F b c d + e + k + w0 by ac_rfl]
  generalize a.rotateLeft 5 + F b c d + e + k + w0 = t1
  generalize b.rotateLeft 30 = b
  rw [show d + t1.rotateLeft 5 + F a b c + (w1 + k) = t1.rotateLeft 5 + F a b c + d + k + w1 by ac_rfl]
  generalize t1.rotateLeft 5 + F a b c + d + k + w1 = t2
  generalize a.rotateLeft 30 = a
  rw [show c + t2.rotateLeft 5 + F t1 a b + (w2 + k) = t2.rotateLeft 5 + F t1 a b + c + k + w2 by ac_rfl]
  generalize t2.rotateLeft 5 + F t1 a b + c + k + w2 = t3
  generalize t1.rotateLeft 30 = t1
  rw [show b + t3.rotateLeft 5 + F t2 t1 a + (w3 + k) = t3.rotateLeft 5 + F t2 t1 a + b + k + w3 by ac_rfl]

theorem round_eq (t : Nat) (w : W32) (s : V5 W32) {F : W32 → W32 → W32 → W32} {k : W32}
    (hF : ∀ x y z, Spec.Sha1.f t x y z = F x y z) (hk : Spec.Sha1.K t = k) :
    Spec.Sha1.round t w s = R F k w s := by
  simp only [Spec.Sha1.round, hF, hk, R]

theorem rounds_four (block : Bytes) (n : Nat) (s : V5 W32) : st block (n + 1) s =
    Spec.Sha1.round (4 * n + 3) (W block (4 * n + 3)) (Spec.Sha1.round (4 * n + 2) (W block (4 * n + 2))
      (Spec.Sha1.round (4 * n + 1) (W block (4 * n + 1)) (Spec.Sha1.round (4 * n) (W block (4 * n)) (st block n s)))) := by
  rw [st, show 4 * (n + 1) = 4 * n + 3 + 1 by omega]
  rfl

/-- Boolean function of round group `i`. -/
def boolF (i : Nat) : W32 → W32 → W32 → W32 :=
  match i with | 0 => bool3ary_202 | 1 => bool3ary_150 | 2 => bool3ary_232 | _ => bool3ary_150

theorem f_cases {i t : Nat} (hi : i < 4) (ht : t / 20 = i) :
    (∀ x y z, Spec.Sha1.f t x y z = boolF i x y z) ∧
    Spec.Sha1.K t = K i := by
  have : i = 0 ∨ i = 1 ∨ i = 2 ∨ i = 3 := by omega
  rcases this with h | h | h | h <;> subst h
  · have h1 : t < 20 := by omega
    refine ⟨fun x y z => ?_, ?_⟩
    · simp only [Spec.Sha1.f, h1, if_true]; exact (ch_alt x y z).symm
    · simp only [Spec.Sha1.K, h1, if_true]; rfl
  · have h1 : ¬ t < 20 := by omega
    have h2 : t < 40 := by omega
    refine ⟨fun x y z => ?_, ?_⟩
    · simp only [Spec.Sha1.f, h1, h2, if_true, if_false]; rfl
    · simp only [Spec.Sha1.K, h1, h2, if_true, if_false]; rfl
  · have h1 : ¬ t < 20 := by omega
    have h2 : ¬ t < 40 := by omega
    have h3 : t < 60 := by omega
    refine ⟨fun x y z => ?_, ?_⟩
    · simp only [Spec.Sha1.f, h1, h2, h3, if_true, if_false]; rfl
    · simp only [Spec.Sha1.K, h1, h2, h3, if_true, if_false]; rfl
  · have h1 : ¬ t < 20 := by omega
    have h2 : ¬ t < 40 := by omega
    have h3 : ¬ t < 60 := by omega
    refine ⟨fun x y z => ?_, ?_⟩
    · simp only [Spec.Sha1.f, h1, h2, h3, if_false]; rfl
    · simp only [Spec.Sha1.K, h1, h2, h3, if_false]; rfl

theorem digestRoundX4_unfold (x work : V4 W32) {i : Nat} (hi : i < 4) :
    digestRoundX4 x work i = rnds4 (boolF i) x
      ⟨work.x0 + K i, work.x1 + K i, work.x2 + K i, work.x3 + K i⟩ := by
  have : i = 0 ∨ i = 1 ∨ i = 2 ∨ i = 3 := by omega
  rcases this with h | h | h | h <;> subst h <;> rfl

theorem roundX4_eq {block : Bytes} {n : Nat} (i : Nat) (hi : i < 4) (hn : n / 5 = i) (s : V5 W32) :
    digestRoundX4 (abcd s) (firstAdd s.x4 (wv block (4 * n))) i =
      abcd (Spec.Sha1.round (4 * n + 3) (W block (4 * n + 3)) (Spec.Sha1.round (4 * n + 2) (W block (4 * n + 2))
      (Spec.Sha1.round (4 * n + 1) (W block (4 * n + 1)) (Spec.Sha1.round (4 * n) (W block (4 * n)) s)))) := by
  obtain ⟨a0, b0⟩ := f_cases (t := 4 * n) hi (by omega)
  obtain ⟨a1, b1⟩ := f_cases (t := 4 * n + 1) hi (by omega)
  obtain ⟨a2, b2⟩ := f_cases (t := 4 * n + 2) hi (by omega)
  obtain ⟨a3, b3⟩ := f_cases (t := 4 * n + 3) hi (by omega)
  rw [round_eq _ _ _ a0 b0, round_eq _ _ _ a1 b1, round_eq _ _ _ a2 b2, round_eq _ _ _ a3 b3,
    digestRoundX4_unfold _ _ hi]
  obtain ⟨a, b, c, d, e⟩ := s
  simp only [firstAdd, wv]
  exact rnds4_eq _ (K i) a b c d e _ _ _ _

theorem st_e (block : Bytes) (n : Nat) (s : V5 W32) :
    (st block (n + 1) s).x4 = (st block n s).x0.rotateLeft 30 := by
  rw [rounds_four]; rfl

theorem rounds4_eq {block : Bytes} (n i : Nat) (hi : i < 4) (hn : n / 5 = i ∧ 0 < n) (s : V5 W32) :
    rounds4 (abcd (st block n s)) (abcd (st block (n - 1) s)) (wv block (4 * n)) i = abcd (st block (n + 1) s) := by
  obtain ⟨m, rfl⟩ : ∃ m, n = m + 1 := ⟨n - 1, by omega⟩
  rw [rounds_four block (m + 1), ← roundX4_eq i hi hn.1]
  unfold rounds4 firstHalf
  rw [st_e]
  rfl

theorem digestBlock_eq (s : V5 W32) (block : Bytes) :
    digestBlockU32 s (wordBE 32 block) = Spec.Sha1.compress s block := by
  have hw : ∀ t, t < 16 → wordBE 32 block t = W block t := fun t ht => (W_lt block ht).symm
  unfold digestBlockU32
  extract_lets v0 v4 v8 v12 g0 f0 g1 g2 g3 g4 v16 g5 v20 g6 v24 g7 v28 g8 v32 g9 v36 g10 v40 g11 v44 g12 v48 g13 v52 g14 v56 g15 v60 g16 v64 g17 v68 g18 v72 g19 v76 g20 e
  have hv0 : v0 = wv block 0 := by
    show (⟨wordBE 32 block 0, wordBE 32 block 1, wordBE 32 block 2, wordBE 32 block 3⟩ : V4 W32) = _
    rw [hw 0 (by omega), hw 1 (by omega), hw 2 (by omega), hw 3 (by omega)]; rfl
  have hv4 : v4 = wv block 4 := by
    show (⟨wordBE 32 block 4, wordBE 32 block 5, wordBE 32 block 6, wordBE 32 block 7⟩ : V4 W32) = _
    rw [hw 4 (by omega), hw 5 (by omega), hw 6 (by omega), hw 7 (by omega)]; rfl
  have hv8 : v8 = wv block 8 := by
    show (⟨wordBE 32 block 8, wordBE 32 block 9, wordBE 32 block 10, wordBE 32 block 11⟩ : V4 W32) = _
    rw [hw 8 (by omega), hw 9 (by omega), hw 10 (by omega), hw 11 (by omega)]; rfl
  have hv12 : v12 = wv block 12 := by
    show (⟨wordBE 32 block 12, wordBE 32 block 13, wordBE 32 block 14, wordBE 32 block 15⟩ : V4 W32) = _
    rw [hw 12 (by omega), hw 13 (by omega), hw 14 (by omega), hw 15 (by omega)]; rfl
  have hg0 : g0 = abcd (st block 0 s) := rfl
  have hg1 : g1 = abcd (st block 1 s) := by
    rw [show g1 = digestRoundX4 g0 (firstAdd s.x4 v0) 0 from rfl, hv0, hg0]
    rw [rounds_four block 0]
    exact roundX4_eq (block := block) (n := 0) 0 (by omega) (by omega) (st block 0 s)
  have hg2 : g2 = abcd (st block 2 s) := by
    rw [show g2 = rounds4 g1 g0 v4 0 from rfl, hv4, hg1, hg0]
    exact rounds4_eq 1 0 (by omega) (by omega) s
  have hg3 : g3 = abcd (st block 3 s) := by
    rw [show g3 = rounds4 g2 g1 v8 0 from rfl, hv8, hg2, hg1]
    exact rounds4_eq 2 0 (by omega) (by omega) s
  have hg4 : g4 = abcd (st block 4 s) := by
    rw [show g4 = rounds4 g3 g2 v12 0 from rfl, hv12, hg3, hg2]
    exact rounds4_eq 3 0 (by omega) (by omega) s
  have hv16 : v16 = wv block 16 := by
    rw [show v16 = scheduleM v0 v4 v8 v12 from rfl, hv0, hv4, hv8, hv12]
    exact schedule_eq block (by omega)
  have hg5 : g5 = abcd (st block 5 s) := by
    rw [show g5 = rounds4 g4 g3 v16 0 from rfl, hv16, hg4, hg3]
    exact rounds4_eq 4 0 (by omega) (by omega) s
  have hv20 : v20 = wv block 20 := by
    rw [show v20 = scheduleM v4 v8 v12 v16 from rfl, hv4, hv8, hv12, hv16]
    exact schedule_eq block (by omega)
  have hg6 : g6 = abcd (st block 6 s) := by
    rw [show g6 = rounds4 g5 g4 v20 1 from rfl, hv20, hg5, hg4]
    exact rounds4_eq 5 1 (by omega) (by omega) s
  have hv24 : v24 = wv block 24 := by
    rw [show v24 = scheduleM v8 v12 v16 v20 from rfl, hv8, hv12, hv16, hv20]
    exact schedule_eq block (by omega)
  have hg7 : g7 = abcd (st block 7 s) := by
    rw [show g7 = rounds4 g6 g5 v24 1 from rfl, hv24, hg6, hg5]
    exact rounds4_eq 6 1 (by omega) (by omega) s
  have hv28 : v28 = wv block 28 := by
    rw [show v28 = scheduleM v12 v16 v20 v24 from rfl, hv12, hv16, hv20, hv24]
    exact schedule_eq block (by omega)
  have hg8 : g8 = abcd (st block 8 s) := by
    rw [show g8 = rounds4 g7 g6 v28 1 from rfl, hv28, hg7, hg6]
    exact rounds4_eq 7 1 (by omega) (by omega) s
  have hv32 : v32 = wv block 32 := by
    rw [show v32 = scheduleM v16 v20 v24 v28 from rfl, hv16, hv20, hv24, hv28]
    exact schedule_eq block (by omega)
  have hg9 : g9 = abcd (st block 9 s) := by
    rw [show g9 = rounds4 g8 g7 v32 1 from rfl, hv32, hg8, hg7]
    exact rounds4_eq 8 1 (by omega) (by omega) s
  have hv36 : v36 = wv block 36 := by
    rw [show v36 = scheduleM v20 v24 v28 v32 from rfl, hv20, hv24, hv28, hv32]
    exact schedule_eq block (by omega)
  have hg10 : g10 = abcd (st block 10 s) := by
    rw [show g10 = rounds4 g9 g8 v36 1 from rfl, hv36, hg9, hg8]
    exact rounds4_eq 9 1 (by omega) (by omega) s
  have hv40 : v40 = wv block 40 := by
    rw [show v40 = scheduleM v24 v28 v32 v36 from rfl, hv24, hv28, hv32, hv36]
    exact schedule_eq block (by omega)
  have hg11 : g11 = abcd (st block 11 s) := by
    rw [show g11 = rounds4 g10 g9 v40 2 from rfl, hv40, hg10, hg9]
    exact rounds4_eq 10 2 (by omega) (by omega) s
  have hv44 : v44 = wv block 44 := by
    rw [show v44 = scheduleM v28 v32 v36 v40 from rfl, hv28, hv32, hv36, hv40]
    exact schedule_eq block (by omega)
  have hg12 : g12 = abcd (st block 12 s) := by
    rw [show g12 = rounds4 g11 g10 v44 2 from rfl, hv44, hg11, hg10]
    exact rounds4_eq 11 2 (by omega) (by omega) s
  have hv48 : v48 = wv block 48 := by
    rw [show v48 = scheduleM v32 v36 v40 v44 from rfl, hv32, hv36, hv40, hv44]
    exact schedule_eq block (by omega)
  have hg13 : g13 = abcd (st block 13 s) := by
    rw [show g13 = rounds4 g12 g11 v48 2 from rfl, hv48, hg12, hg11]
    exact rounds4_eq 12 2 (by omega) (by omega) s
  have hv52 : v52 = wv block 52 := by
    rw [show v52 = scheduleM v36 v40 v44 v48 from rfl, hv36, hv40, hv44, hv48]
    exact schedule_eq block (by omega)
  have hg14 : g14 = abcd (st block 14 s) := by
    rw [show g14 = rounds4 g13 g12 v52 2 from rfl, hv52, hg13, hg12]
    exact rounds4_eq 13 2 (by omega) (by omega) s
  have hv56 : v56 = wv block 56 := by
    rw [show v56 = scheduleM v40 v44 v48 v52 from rfl, hv40, hv44, hv48, hv52]
    exact schedule_eq block (by omega)
  have hg15 : g15 = abcd (st block 15 s) := by
    rw [show g15 = rounds4 g14 g13 v56 2 from rfl, hv56, hg14, hg13]
    exact rounds4_eq 14 2 (by omega) (by omega) s
  have hv60 : v60 = wv block 60 := by
    rw [show v60 = scheduleM v44 v48 v52 v56 from rfl, hv44, hv48, hv52, hv56]
    exact schedule_eq block (by omega)
  have hg16 : g16 = abcd (st block 16 s) := by
    rw [show g16 = rounds4 g15 g14 v60 3 from rfl, hv60, hg15, hg14]
    exact rounds4_eq 15 3 (by omega) (by omega) s
  have hv64 : v64 = wv block 64 := by
    rw [show v64 = scheduleM v48 v52 v56 v60 from rfl, hv48, hv52, hv56, hv60]
    exact schedule_eq block (by omega)
  have hg17 : g17 = abcd (st block 17 s) := by
    rw [show g17 = rounds4 g16 g15 v64 3 from rfl, hv64, hg16, hg15]
    exact rounds4_eq 16 3 (by omega) (by omega) s
  have hv68 : v68 = wv block 68 := by
    rw [show v68 = scheduleM v52 v56 v60 v64 from rfl, hv52, hv56, hv60, hv64]
    exact schedule_eq block (by omega)
  have hg18 : g18 = abcd (st block 18 s) := by
    rw [show g18 = rounds4 g17 g16 v68 3 from rfl, hv68, hg17, hg16]
    exact rounds4_eq 17 3 (by omega) (by omega) s
  have hv72 : v72 = wv block 72 := by
    rw [show v72 = scheduleM v56 v60 v64 v68 from rfl, hv56, hv60, hv64, hv68]
    exact schedule_eq block (by omega)
  have hg19 : g19 = abcd (st block 19 s) := by
    rw [show g19 = rounds4 g18 g17 v72 3 from rfl, hv72, hg18, hg17]
    exact rounds4_eq 18 3 (by omega) (by omega) s
  have hv76 : v76 = wv block 76 := by
    rw [show v76 = scheduleM v60 v64 v68 v72 from rfl, hv60, hv64, hv68, hv72]
    exact schedule_eq block (by omega)
  have hg20 : g20 = abcd (st block 20 s) := by
    rw [show g20 = rounds4 g19 g18 v76 3 from rfl, hv76, hg19, hg18]
    exact rounds4_eq 19 3 (by omega) (by omega) s
  have he : e = (st block 20 s).x4 := by
    rw [show e = g19.x0.rotateLeft 30 from rfl, hg19]
    exact (st_e block 19 s).symm
  rw [he, hg20]
  unfold Spec.Sha1.compress st abcd V5.zip W
  rfl

theorem compressSoft_eq (s : V5 W32) (blks : List Bytes) :
    compressSoft s blks = blks.foldl Spec.Sha1.compress s := by
  simp only [compressSoft, digestBlock_eq]

theorem lawful : sha1.Lawful (fun _ => True) where
  bs_pos := by decide
  nil := fun s => by simp [sha1, updateBlocks, compressSoft]
  app := fun s x y => by simp [sha1, updateBlocks, compressSoft, BitVec.ofNat_add, BitVec.add_assoc]
  inv_init := trivial
  inv_update := fun _ _ _ _ => trivial
  reset_eq := fun _ _ => rfl
  fin_congr := fun s b b' h h' hc => by
    simp only [sha1, finalize, BlockBuffer.len64PaddingBE]
    rw [pos_congr h h' hc, digestPad_congr (bs := 64) h h' hc (by simp)]

theorem serLawful : sha1.SerLawful (fun _ => True) where
  bs_le := by decide
  len := fun s _ => by simp [sha1, serialize, length_bytesOfWordsLE, V5.toList]
  round := fun s _ => by
    simp only [sha1, serialize, deserialize]
    rw [if_pos (by simp [length_bytesOfWordsLE, V5.toList])]
    have h : ∀ i (hi : i < 5), wordLE 32 (bytesOfWordsLE s.h.toList ++ leBytes 8 s.blockLen.toNat) i =
      s.h.toList.getD i 0 := fun i hi => wordLE_append (by decide) _ _ _ (by simpa [V5.toList] using hi)
    rw [List.drop_left' (by simp [length_bytesOfWordsLE, V5.toList]), counter_round (by decide)]
    simp only [V5.ofFn, h 0 (by decide), h 1 (by decide), h 2 (by decide), h 3 (by decide), h 4 (by decide)]
    rfl

theorem deserLawful : sha1.DeserLawful where
  canon := fun raw s h => by
    simp only [sha1, deserialize, serialize] at h ⊢
    split at h
    · rename_i hl
      injection h with h
      subst h
      have : (V5.ofFn (wordLE 32 raw)).toList = (List.range 5).map (wordLE 32 raw) := rfl
      rw [this, bytesOfWordsLE_range (by decide) _ _ (by omega), counter_canon (by decide) (by simp [hl])]
      simp
    · cases h

theorem digest_eq (m : Bytes) : sha1.digest m = Spec.Sha1.sha1 m := by
  obtain ⟨b, h1, h2, h3, h4⟩ := Core.digest_eager lawful rfl m
  rw [h4]
  simp only [sha1] at h1 h2 h3 ⊢
  simp only [finalize, updateBlocks, compressSoft_eq, BlockBuffer.len64PaddingBE, List.foldl_cons,
    List.foldl_nil, length_blocks, h3, init]
  rw [show (64 : W64) = BitVec.ofNat 64 64 from rfl, bitLen_eq, beBytes_counter (by decide)]
  rw [Spec.Sha1.sha1, Spec.Sha1.pad, ← md_finalize (by decide) h1 (by simp) _ _ m h2]
  rfl

end Sha1
end Hashes
