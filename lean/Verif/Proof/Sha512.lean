import Verif.Model.Sha512
import Verif.Proof.Sha256
/- SHA-512: the soft backend computes FIPS 180-4. -/
namespace Hashes
open Spec
namespace Sha512

/-- Schedule word. -/
def W (block : Bytes) (t : Nat) : W64 := (Spec.Sha512.schedule block).getD t 0

theorem length_schedule (block : Bytes) : (Spec.Sha512.schedule block).length = 80 := by
  simp [Spec.Sha512.schedule, length_expand]

theorem W_lt (block : Bytes) {t : Nat} (h : t < 16) : W block t = wordBE 64 block t := by
  unfold W Spec.Sha512.schedule
  rw [expand_getD_lt _ _ _ _ (by simpa using h)]
  simp [List.getD_eq_getElem?_getD, h]

theorem W_ge (block : Bytes) {t : Nat} (h : t < 64) :
    W block (t + 16) = Spec.Sha512.s1 (W block (t + 14)) + W block (t + 9) +
      Spec.Sha512.s0 (W block (t + 1)) + W block t := by
  have hl := length_schedule block
  unfold W
  conv => lhs; unfold Spec.Sha512.schedule
  rw [expand_getD_ge _ _ _ _ (by simp) (by simp; omega)]
  change Spec.Sha512.s1 (((Spec.Sha512.schedule block).take (t + 16)).reverse.getD 1 0) +
    ((Spec.Sha512.schedule block).take (t + 16)).reverse.getD 6 0 +
    Spec.Sha512.s0 (((Spec.Sha512.schedule block).take (t + 16)).reverse.getD 14 0) +
    ((Spec.Sha512.schedule block).take (t + 16)).reverse.getD 15 0 = _
  rw [getD_reverse_take _ _ (by omega) (by omega), getD_reverse_take _ _ (by omega) (by omega),
    getD_reverse_take _ _ (by omega) (by omega), getD_reverse_take _ _ (by omega) (by omega)]
  rfl

/-- Two consecutive schedule words, newest first. -/
def wv (block : Bytes) (t : Nat) : V2 W64 := ⟨W block (t + 1), W block t⟩

theorem sigma1_eq (x : W64) : sigma1 x = Spec.Sha512.s1 x := by
  have : x.rotateLeft 3 = x.rotateRight 61 := BitVec.or_comm _ _
  simp only [sigma1, Spec.Sha512.s1, this]

theorem schedule_eq (block : Bytes) {t : Nat} (h : t + 1 < 64) :
    scheduleM (wv block t) (wv block (t + 2)) (wv block (t + 8)) (wv block (t + 10)) (wv block (t + 14)) =
      wv block (t + 16) := by
  have h0 := W_ge block (t := t) (by omega)
  have h1 := W_ge block (t := t + 1) (by omega)
  simp only [Nat.add_assoc, Nat.reduceAdd] at h0 h1
  have e : ∀ a, sigma0 a = Spec.Sha512.s0 a := fun _ => rfl
  unfold scheduleM scheduleX2 sha512load wv
  simp only [Nat.add_assoc, Nat.reduceAdd, sigma1_eq, e, ← h0, ← h1]

theorem K_eq : Spec.Sha512.Ks = K64 := by decide +kernel

/-- FIPS state as the registers of the soft backend. -/
def regs (s : V8 W64) : Regs := ⟨⟨s.x0, s.x4⟩, ⟨s.x1, s.x5⟩, ⟨s.x2, s.x6⟩, ⟨s.x3, s.x7⟩⟩

theorem round_eq (a b c d e f g h k w : W64) :
    digestRound ⟨a, e⟩ ⟨b, f⟩ ⟨c, g⟩ ⟨d, h⟩ (w + k) =
      let s := round2 Spec.Sha512.S0 Spec.Sha512.S1 k w ⟨a, b, c, d, e, f, g, h⟩
      ⟨s.x0, s.x4⟩ := by
  have e0 : ∀ a, bigSigma0 a = Spec.Sha512.S0 a := fun _ => rfl
  have e1 : ∀ a, bigSigma1 a = Spec.Sha512.S1 a := fun _ => rfl
  have e2 : ∀ a b c, bool3ary_202 a b c = Ch a b c := ch_alt
  have e3 : ∀ a b c, bool3ary_232 a b c = Maj a b c := fun _ _ _ => rfl
  unfold digestRound round2
  simp only [e0, e1, e2, e3]
  have c0 : Spec.Sha512.S1 e + Ch e f g + (w + k) + h = h + Spec.Sha512.S1 e + Ch e f g + k + w := by ac_rfl
  rw [c0, BitVec.add_comm _ d]

theorem rounds4_eq (s : V8 W64) (block : Bytes) (i : Nat) :
    rounds4 (regs (rounds2 Spec.Sha512.S0 Spec.Sha512.S1 Spec.Sha512.K (W block) (4 * i) s))
      (addRk (wv block (4 * i)) (2 * i)) (addRk (wv block (4 * i + 2)) (2 * i + 1)) =
      regs (rounds2 Spec.Sha512.S0 Spec.Sha512.S1 Spec.Sha512.K (W block) (4 * i + 4) s) := by
  have hk : ∀ n, k64 n = Spec.Sha512.K n := by intro n; simp [k64, Spec.Sha512.K, K_eq]
  have i0 : 2 * (2 * i) + 0 = 4 * i := by omega
  have i1 : 2 * (2 * i) + 1 = 4 * i + 1 := by omega
  have i2 : 2 * (2 * i + 1) + 0 = 4 * i + 2 := by omega
  have i3 : 2 * (2 * i + 1) + 1 = 4 * i + 3 := by omega
  conv => rhs; simp only [rounds2]
  generalize rounds2 Spec.Sha512.S0 Spec.Sha512.S1 Spec.Sha512.K (W block) (4 * i) s = s
  unfold rounds4 addRk
  simp only [hk, wv, i0, i1, i2, i3, Nat.add_assoc, Nat.reduceAdd]
  simp only [regs, round_eq]
  rfl

theorem digestBlock_eq (s : V8 W64) (block : Bytes) :
    digestBlockU64 s (toU64s block) = Spec.Sha512.compress s block := by
  have hw : ∀ t, t < 16 → toU64s block t = W block t := fun t ht => (W_lt block ht).symm
  unfold digestBlockU64
  extract_lets r0 v2 v0 r1 v6 v4 r2 v10 v8 r3 v14 v12 r4 v16 v18 r5 v20 v22 r6 v24 v26 r7 v28 v30 r8 v32 v34 r9 v36 v38 r10 v40 v42 r11 v44 v46 r12 v48 v50 r13 v52 v54 r14 v56 v58 r15 v60 v62 r16 v64 v66 r17 v68 v70 r18 v72 v74 r19 v76 v78 r20
  have hr0 : r0 = regs (rounds2 Spec.Sha512.S0 Spec.Sha512.S1 Spec.Sha512.K (W block) 0 s) := rfl
  have hv2 : v2 = wv block 2 := by
    show (⟨toU64s block 3, toU64s block 2⟩ : V2 W64) = _
    rw [hw 3 (by omega), hw 2 (by omega)]; rfl
  have hv0 : v0 = wv block 0 := by
    show (⟨toU64s block 1, toU64s block 0⟩ : V2 W64) = _
    rw [hw 1 (by omega), hw 0 (by omega)]; rfl
  have hr1 : r1 = regs (rounds2 Spec.Sha512.S0 Spec.Sha512.S1 Spec.Sha512.K (W block) 4 s) := by
    rw [show r1 = rounds4 r0 (addRk v0 0) (addRk v2 1) from rfl, hr0, hv0, hv2]
    exact rounds4_eq s block 0
  have hv6 : v6 = wv block 6 := by
    show (⟨toU64s block 7, toU64s block 6⟩ : V2 W64) = _
    rw [hw 7 (by omega), hw 6 (by omega)]; rfl
  have hv4 : v4 = wv block 4 := by
    show (⟨toU64s block 5, toU64s block 4⟩ : V2 W64) = _
    rw [hw 5 (by omega), hw 4 (by omega)]; rfl
  have hr2 : r2 = regs (rounds2 Spec.Sha512.S0 Spec.Sha512.S1 Spec.Sha512.K (W block) 8 s) := by
    rw [show r2 = rounds4 r1 (addRk v4 2) (addRk v6 3) from rfl, hr1, hv4, hv6]
    exact rounds4_eq s block 1
  have hv10 : v10 = wv block 10 := by
    show (⟨toU64s block 11, toU64s block 10⟩ : V2 W64) = _
    rw [hw 11 (by omega), hw 10 (by omega)]; rfl
  have hv8 : v8 = wv block 8 := by
    show (⟨toU64s block 9, toU64s block 8⟩ : V2 W64) = _
    rw [hw 9 (by omega), hw 8 (by omega)]; rfl
  have hr3 : r3 = regs (rounds2 Spec.Sha512.S0 Spec.Sha512.S1 Spec.Sha512.K (W block) 12 s) := by
    rw [show r3 = rounds4 r2 (addRk v8 4) (addRk v10 5) from rfl, hr2, hv8, hv10]
    exact rounds4_eq s block 2
  have hv14 : v14 = wv block 14 := by
    show (⟨toU64s block 15, toU64s block 14⟩ : V2 W64) = _
    rw [hw 15 (by omega), hw 14 (by omega)]; rfl
  have hv12 : v12 = wv block 12 := by
    show (⟨toU64s block 13, toU64s block 12⟩ : V2 W64) = _
    rw [hw 13 (by omega), hw 12 (by omega)]; rfl
  have hr4 : r4 = regs (rounds2 Spec.Sha512.S0 Spec.Sha512.S1 Spec.Sha512.K (W block) 16 s) := by
    rw [show r4 = rounds4 r3 (addRk v12 6) (addRk v14 7) from rfl, hr3, hv12, hv14]
    exact rounds4_eq s block 3
  have hv16 : v16 = wv block 16 := by
    rw [show v16 = scheduleM v0 v2 v8 v10 v14 from rfl, hv0, hv2, hv8, hv10, hv14]
    exact schedule_eq block (by omega)
  have hv18 : v18 = wv block 18 := by
    rw [show v18 = scheduleM v2 v4 v10 v12 v16 from rfl, hv2, hv4, hv10, hv12, hv16]
    exact schedule_eq block (by omega)
  have hr5 : r5 = regs (rounds2 Spec.Sha512.S0 Spec.Sha512.S1 Spec.Sha512.K (W block) 20 s) := by
    rw [show r5 = rounds4 r4 (addRk v16 8) (addRk v18 9) from rfl, hr4, hv16, hv18]
    exact rounds4_eq s block 4
  have hv20 : v20 = wv block 20 := by
    rw [show v20 = scheduleM v4 v6 v12 v14 v18 from rfl, hv4, hv6, hv12, hv14, hv18]
    exact schedule_eq block (by omega)
  have hv22 : v22 = wv block 22 := by
    rw [show v22 = scheduleM v6 v8 v14 v16 v20 from rfl, hv6, hv8, hv14, hv16, hv20]
    exact schedule_eq block (by omega)
  have hr6 : r6 = regs (rounds2 Spec.Sha512.S0 Spec.Sha512.S1 Spec.Sha512.K (W block) 24 s) := by
    rw [show r6 = rounds4 r5 (addRk v20 10) (addRk v22 11) from rfl, hr5, hv20, hv22]
    exact rounds4_eq s block 5
  have hv24 : v24 = wv block 24 := by
    rw [show v24 = scheduleM v8 v10 v16 v18 v22 from rfl, hv8, hv10, hv16, hv18, hv22]
    exact schedule_eq block (by omega)
  have hv26 : v26 = wv block 26 := by
    rw [show v26 = scheduleM v10 v12 v18 v20 v24 from rfl, hv10, hv12, hv18, hv20, hv24]
    exact schedule_eq block (by omega)
  have hr7 : r7 = regs (rounds2 Spec.Sha512.S0 Spec.Sha512.S1 Spec.Sha512.K (W block) 28 s) := by
    rw [show r7 = rounds4 r6 (addRk v24 12) (addRk v26 13) from rfl, hr6, hv24, hv26]
    exact rounds4_eq s block 6
  have hv28 : v28 = wv block 28 := by
    rw [show v28 = scheduleM v12 v14 v20 v22 v26 from rfl, hv12, hv14, hv20, hv22, hv26]
    exact schedule_eq block (by omega)
  have hv30 : v30 = wv block 30 := by
    rw [show v30 = scheduleM v14 v16 v22 v24 v28 from rfl, hv14, hv16, hv22, hv24, hv28]
    exact schedule_eq block (by omega)
  have hr8 : r8 = regs (rounds2 Spec.Sha512.S0 Spec.Sha512.S1 Spec.Sha512.K (W block) 32 s) := by
    rw [show r8 = rounds4 r7 (addRk v28 14) (addRk v30 15) from rfl, hr7, hv28, hv30]
    exact rounds4_eq s block 7
  have hv32 : v32 = wv block 32 := by
    rw [show v32 = scheduleM v16 v18 v24 v26 v30 from rfl, hv16, hv18, hv24, hv26, hv30]
    exact schedule_eq block (by omega)
  have hv34 : v34 = wv block 34 := by
    rw [show v34 = scheduleM v18 v20 v26 v28 v32 from rfl, hv18, hv20, hv26, hv28, hv32]
    exact schedule_eq block (by omega)
  have hr9 : r9 = regs (rounds2 Spec.Sha512.S0 Spec.Sha512.S1 Spec.Sha512.K (W block) 36 s) := by
    rw [show r9 = rounds4 r8 (addRk v32 16) (addRk v34 17) from rfl, hr8, hv32, hv34]
    exact rounds4_eq s block 8
  have hv36 : v36 = wv block 36 := by
    rw [show v36 = scheduleM v20 v22 v28 v30 v34 from rfl, hv20, hv22, hv28, hv30, hv34]
    exact schedule_eq block (by omega)
  have hv38 : v38 = wv block 38 := by
    rw [show v38 = scheduleM v22 v24 v30 v32 v36 from rfl, hv22, hv24, hv30, hv32, hv36]
    exact schedule_eq block (by omega)
  have hr10 : r10 = regs (rounds2 Spec.Sha512.S0 Spec.Sha512.S1 Spec.Sha512.K (W block) 40 s) := by
    rw [show r10 = rounds4 r9 (addRk v36 18) (addRk v38 19) from rfl, hr9, hv36, hv38]
    exact rounds4_eq s block 9
  have hv40 : v40 = wv block 40 := by
    rw [show v40 = scheduleM v24 v26 v32 v34 v38 from rfl, hv24, hv26, hv32, hv34, hv38]
    exact schedule_eq block (by omega)
  have hv42 : v42 = wv block 42 := by
    rw [show v42 = scheduleM v26 v28 v34 v36 v40 from rfl, hv26, hv28, hv34, hv36, hv40]
    exact schedule_eq block (by omega)
  have hr11 : r11 = regs (rounds2 Spec.Sha512.S0 Spec.Sha512.S1 Spec.Sha512.K (W block) 44 s) := by
    rw [show r11 = rounds4 r10 (addRk v40 20) (addRk v42 21) from rfl, hr10, hv40, hv42]
    exact rounds4_eq s block 10
  have hv44 : v44 = wv block 44 := by
    rw [show v44 = scheduleM v28 v30 v36 v38 v42 from rfl, hv28, hv30, hv36, hv38, hv42]
    exact schedule_eq block (by omega)
  have hv46 : v46 = wv block 46 := by
    rw [show v46 = scheduleM v30 v32 v38 v40 v44 from rfl, hv30, hv32, hv38, hv40, hv44]
    exact schedule_eq block (by omega)
  have hr12 : r12 = regs (rounds2 Spec.Sha512.S0 Spec.Sha512.S1 Spec.Sha512.K (W block) 48 s) := by
    rw [show r12 = rounds4 r11 (addRk v44 22) (addRk v46 23) from rfl, hr11, hv44, hv46]
    exact rounds4_eq s block 11
  have hv48 : v48 = wv block 48 := by
    rw [show v48 = scheduleM v32 v34 v40 v42 v46 from rfl, hv32, hv34, hv40, hv42, hv46]
    exact schedule_eq block (by omega)
  have hv50 : v50 = wv block 50 := by
    rw [show v50 = scheduleM v34 v36 v42 v44 v48 from rfl, hv34, hv36, hv42, hv44, hv48]
    exact schedule_eq block (by omega)
  have hr13 : r13 = regs (rounds2 Spec.Sha512.S0 Spec.Sha512.S1 Spec.Sha512.K (W block) 52 s) := by
    rw [show r13 = rounds4 r12 (addRk v48 24) (addRk v50 25) from rfl, hr12, hv48, hv50]
    exact rounds4_eq s block 12
  have hv52 : v52 = wv block 52 := by
    rw [show v52 = scheduleM v36 v38 v44 v46 v50 from rfl, hv36, hv38, hv44, hv46, hv50]
    exact schedule_eq block (by omega)
  have hv54 : v54 = wv block 54 := by
    rw [show v54 = scheduleM v38 v40 v46 v48 v52 from rfl, hv38, hv40, hv46, hv48, hv52]
    exact schedule_eq block (by omega)
  have hr14 : r14 = regs (rounds2 Spec.Sha512.S0 Spec.Sha512.S1 Spec.Sha512.K (W block) 56 s) := by
    rw [show r14 = rounds4 r13 (addRk v52 26) (addRk v54 27) from rfl, hr13, hv52, hv54]
    exact rounds4_eq s block 13
  have hv56 : v56 = wv block 56 := by
    rw [show v56 = scheduleM v40 v42 v48 v50 v54 from rfl, hv40, hv42, hv48, hv50, hv54]
    exact schedule_eq block (by omega)
  have hv58 : v58 = wv block 58 := by
    rw [show v58 = scheduleM v42 v44 v50 v52 v56 from rfl, hv42, hv44, hv50, hv52, hv56]
    exact schedule_eq block (by omega)
  have hr15 : r15 = regs (rounds2 Spec.Sha512.S0 Spec.Sha512.S1 Spec.Sha512.K (W block) 60 s) := by
    rw [show r15 = rounds4 r14 (addRk v56 28) (addRk v58 29) from rfl, hr14, hv56, hv58]
    exact rounds4_eq s block 14
  have hv60 : v60 = wv block 60 := by
    rw [show v60 = scheduleM v44 v46 v52 v54 v58 from rfl, hv44, hv46, hv52, hv54, hv58]
    exact schedule_eq block (by omega)
  have hv62 : v62 = wv block 62 := by
    rw [show v62 = scheduleM v46 v48 v54 v56 v60 from rfl, hv46, hv48, hv54, hv56, hv60]
    exact schedule_eq block (by omega)
  have hr16 : r16 = regs (rounds2 Spec.Sha512.S0 Spec.Sha512.S1 Spec.Sha512.K (W block) 64 s) := by
    rw [show r16 = rounds4 r15 (addRk v60 30) (addRk v62 31) from rfl, hr15, hv60, hv62]
    exact rounds4_eq s block 15
  have hv64 : v64 = wv block 64 := by
    rw [show v64 = scheduleM v48 v50 v56 v58 v62 from rfl, hv48, hv50, hv56, hv58, hv62]
    exact schedule_eq block (by omega)
  have hv66 : v66 = wv block 66 := by
    rw [show v66 = scheduleM v50 v52 v58 v60 v64 from rfl, hv50, hv52, hv58, hv60, hv64]
    exact schedule_eq block (by omega)
  have hr17 : r17 = regs (rounds2 Spec.Sha512.S0 Spec.Sha512.S1 Spec.Sha512.K (W block) 68 s) := by
    rw [show r17 = rounds4 r16 (addRk v64 32) (addRk v66 33) from rfl, hr16, hv64, hv66]
    exact rounds4_eq s block 16
  have hv68 : v68 = wv block 68 := by
    rw [show v68 = scheduleM v52 v54 v60 v62 v66 from rfl, hv52, hv54, hv60, hv62, hv66]
    exact schedule_eq block (by omega)
  have hv70 : v70 = wv block 70 := by
    rw [show v70 = scheduleM v54 v56 v62 v64 v68 from rfl, hv54, hv56, hv62, hv64, hv68]
    exact schedule_eq block (by omega)
  have hr18 : r18 = regs (rounds2 Spec.Sha512.S0 Spec.Sha512.S1 Spec.Sha512.K (W block) 72 s) := by
    rw [show r18 = rounds4 r17 (addRk v68 34) (addRk v70 35) from rfl, hr17, hv68, hv70]
    exact rounds4_eq s block 17
  have hv72 : v72 = wv block 72 := by
    rw [show v72 = scheduleM v56 v58 v64 v66 v70 from rfl, hv56, hv58, hv64, hv66, hv70]
    exact schedule_eq block (by omega)
  have hv74 : v74 = wv block 74 := by
    rw [show v74 = scheduleM v58 v60 v66 v68 v72 from rfl, hv58, hv60, hv66, hv68, hv72]
    exact schedule_eq block (by omega)
  have hr19 : r19 = regs (rounds2 Spec.Sha512.S0 Spec.Sha512.S1 Spec.Sha512.K (W block) 76 s) := by
    rw [show r19 = rounds4 r18 (addRk v72 36) (addRk v74 37) from rfl, hr18, hv72, hv74]
    exact rounds4_eq s block 18
  have hv76 : v76 = wv block 76 := by
    rw [show v76 = scheduleM v60 v62 v68 v70 v74 from rfl, hv60, hv62, hv68, hv70, hv74]
    exact schedule_eq block (by omega)
  have hv78 : v78 = wv block 78 := by
    rw [show v78 = scheduleM v62 v64 v70 v72 v76 from rfl, hv62, hv64, hv70, hv72, hv76]
    exact schedule_eq block (by omega)
  have hr20 : r20 = regs (rounds2 Spec.Sha512.S0 Spec.Sha512.S1 Spec.Sha512.K (W block) 80 s) := by
    rw [show r20 = rounds4 r19 (addRk v76 38) (addRk v78 39) from rfl, hr19, hv76, hv78]
    exact rounds4_eq s block 19
  rw [hr20]
  rfl

theorem compressSoft_eq (s : V8 W64) (blks : List Bytes) :
    compressSoft s blks = blks.foldl Spec.Sha512.compress s := by
  simp only [compressSoft, digestBlock_eq]

theorem lawful : varCore.Lawful where
  bs_pos := by decide
  nil := fun s => by simp [varCore, updateBlocks, compressSoft]
  app := fun s x y => by simp [varCore, updateBlocks, compressSoft, BitVec.ofNat_add, BitVec.add_assoc]
  fin_congr := fun s b b' h h' hc => by
    simp only [varCore, finalizeFull, BlockBuffer.len128PaddingBE]
    rw [pos_congr h h' hc, digestPad_congr (bs := 128) h h' hc (by simp)]

theorem serLawful : varCore.SerLawful where
  bs_le := by decide
  len := fun s => by simp [varCore, serialize, length_bytesOfWordsLE, V8.toList]
  round := fun s => by
    simp only [varCore, serialize, deserialize]
    rw [if_pos (by simp [length_bytesOfWordsLE, V8.toList])]
    have h : ∀ i (hi : i < 8), wordLE 64 (bytesOfWordsLE s.state.toList ++ leBytes 16 s.blockLen.toNat) i =
      s.state.toList.getD i 0 := fun i hi => wordLE_append (by decide) _ _ _ (by simpa [V8.toList] using hi)
    rw [List.drop_left' (by simp [length_bytesOfWordsLE, V8.toList]), counter_round (by decide)]
    simp only [V8.ofFn, h 0 (by decide), h 1 (by decide), h 2 (by decide), h 3 (by decide), h 4 (by decide),
      h 5 (by decide), h 6 (by decide), h 7 (by decide)]
    rfl
  canon := fun raw s h => by
    simp only [varCore, deserialize, serialize] at h ⊢
    split at h
    · rename_i hl
      injection h with h
      subst h
      have : (V8.ofFn (wordLE 64 raw)).toList = (List.range 8).map (wordLE 64 raw) := rfl
      rw [this, bytesOfWordsLE_range (by decide) _ _ (by omega), counter_canon (by decide) (by simp [hl])]
      simp
    · cases h

theorem finalize_chain (iv : V8 W64) (m : Bytes) {b : BlockBuffer} (h1 : b.WF .eager 128)
    (h2 : b.content = m.drop (m.length / 128 * 128)) (h3 : b.pos = m.length % 128) :
    finalizeFull (updateBlocks ⟨iv, 0⟩ (blocks 128 (m.length / 128) m)) b =
      bytesOfWordsBE (Spec.Sha512.chain iv m).toList := by
  simp only [finalizeFull, updateBlocks, compressSoft_eq, BlockBuffer.len128PaddingBE, List.foldl_cons,
    List.foldl_nil, length_blocks, h3]
  rw [show (128 : W128) = BitVec.ofNat 128 128 from rfl, bitLen_eq, beBytes_counter (by decide)]
  rw [Spec.Sha512.chain, Spec.Sha512.pad]
  rw [← md_finalize (by decide) h1 (by simp) _ _ m h2]
  rfl

theorem digest_chain (iv : V8 W64) (n : Nat) (m : Bytes) :
    (varCore.ctWith n ⟨iv, 0⟩).digest m = (bytesOfWordsBE (Spec.Sha512.chain iv m).toList).take n := by
  obtain ⟨b, h1, h2, h3, h4⟩ := Core.digest_eager (lawful.ct n ⟨iv, 0⟩) rfl m
  rw [h4, ← finalize_chain iv m h1 h2 h3]
  rfl

end Sha512
end Hashes
