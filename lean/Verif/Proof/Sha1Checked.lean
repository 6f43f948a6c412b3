import Verif.Proof.Sha1Steps
import Verif.Proof.Sha1Ubc
import Verif.Proof.Sha1Dv
/- sha1-checked equals the collision-detection specification. -/
namespace Hashes.Sha1Checked
open Spec Spec.Sha1Cd

/-! ### rounds are invertible -/

theorem rotl30_inj {x y : W32} (h : x.rotateLeft 30 = y.rotateLeft 30) : x = y := by
  have : ∀ z : W32, (z.rotateLeft 30).rotateRight 30 = z := by
    intro z
    ext i hi
    simp only [BitVec.getElem_rotateLeft, BitVec.getElem_rotateRight]
    simp (disch := omega)
    split <;> split <;> (try omega) <;> congr 1 <;> omega
  rw [← this x, h, this]

theorem round_inj {t : Nat} {w : W32} {s s' : V5 W32} (h : Spec.Sha1.round t w s = Spec.Sha1.round t w s') : s = s' := by
  simp only [Spec.Sha1.round, V5.mk.injEq] at h
  obtain ⟨h0, h1, h2, h3, h4⟩ := h
  have h2 := rotl30_inj h2
  rw [h1, h2, h3, h4, BitVec.add_left_inj, BitVec.add_left_inj, BitVec.add_right_inj] at h0
  ext1 <;> assumption

theorem rounds_inj {W : Nat → W32} {t : Nat} {s s' : V5 W32}
    (h : Spec.Sha1.rounds W t s = Spec.Sha1.rounds W t s') : s = s' := by
  induction t with
  | zero => exact h
  | succ t ih => exact ih (round_inj h)

theorem view_inj {r : Nat} (hr : r < 5) {v v' : V5 W32} (h : view r v = view r v') : v = v' := by
  rcases cases5 hr with rfl | rfl | rfl | rfl | rfl <;>
    (simp [view, V5.get] at h; ext1 <;> simp [h])

/-! ### sibling blocks -/

theorem rotl1_xor (x y : W32) : (x ^^^ y).rotateLeft 1 = x.rotateLeft 1 ^^^ y.rotateLeft 1 := by
  ext i hi
  simp only [BitVec.getElem_rotateLeft, BitVec.getElem_xor]
  split <;> rfl

theorem wordBE_bytes (l : List W32) (d : W32) {i : Nat} (hi : i < l.length) :
    wordBE 32 (bytesOfWordsBE l) i = l.getD i d := by
  induction l generalizing i with
  | nil => simp at hi
  | cons x l ih =>
    rw [bytesOfWordsBE_cons]
    cases i with
    | zero =>
      have : (beBytes (32 / 8) x.toNat ++ bytesOfWordsBE l).take 4 = beBytes (32 / 8) x.toNat :=
        List.take_left' (by simp)
      simp only [wordBE, Nat.mul_zero, List.drop_zero, List.getD_cons_zero]
      rw [this, word_be (by decide)]
    | succ i =>
      have hd : (beBytes (32 / 8) x.toNat ++ bytesOfWordsBE l).drop (32 / 8 * (i + 1)) =
          (bytesOfWordsBE l).drop (32 / 8 * i) := by
        rw [Nat.mul_add, Nat.mul_one, Nat.add_comm, ← List.drop_drop, List.drop_left' (by simp)]
      simp only [wordBE, List.getD_cons_succ]
      rw [hd]
      exact ih (by simpa using hi)

/-- What the table facts say about one vector. -/
structure Valid (D : List W32) : Prop where
  len : D.length = 80
  exp : ∀ t < 64, D.getD (t + 16) 0 = (D.getD (t + 13) 0 ^^^ D.getD (t + 8) 0 ^^^ D.getD (t + 2) 0 ^^^ D.getD t 0).rotateLeft 1

theorem getD_zipWith {α β γ : Type} (f : α → β → γ) (l : List α) (l' : List β) (x : α) (y : β) (z : γ) {i : Nat}
    (h : i < l.length) (h' : i < l'.length) : (l.zipWith f l').getD i z = f (l.getD i x) (l'.getD i y) := by
  simp only [List.getD_eq_getElem?_getD, List.getElem?_zipWith, List.getElem?_eq_getElem h, List.getElem?_eq_getElem h']
  rfl

theorem getD_drop (l : List W32) (n i : Nat) : (l.drop n).getD i 0 = l.getD (i + n) 0 := by
  simp [List.getD_eq_getElem?_getD, Nat.add_comm]

theorem expanded_getD (D : List W32) (h : D.length = 80) {t : Nat} (ht : t < 64) : (expanded D).getD t 0 =
    (D.getD (t + 13) 0 ^^^ D.getD (t + 8) 0 ^^^ D.getD (t + 2) 0 ^^^ D.getD t 0).rotateLeft 1 := by
  unfold expanded
  rw [getD_zipWith _ _ _ (0 : W32) (0 : W32) (0 : W32) (by simp; omega) (by omega),
    getD_zipWith _ _ _ (0 : W32) (0 : W32) (0 : W32) (by simp; omega) (by simp; omega),
    getD_zipWith _ _ _ (0 : W32) (0 : W32) (0 : W32) (by simp; omega) (by simp; omega), getD_drop, getD_drop, getD_drop]

theorem valid_of_mem {i : Info} (h : i ∈ SHA1_DVS) : Valid i.dm := by
  have t := dm_expand
  rw [List.all_eq_true] at t
  have t := t i h
  simp only [Bool.and_eq_true, decide_eq_true_eq, beq_iff_eq] at t
  refine ⟨t.1, fun k hk => ?_⟩
  rw [← expanded_getD i.dm t.1 hk, ← getD_drop i.dm 16 k, ← t.2]
  simp only [List.getD_eq_getElem?_getD]
  rw [List.getElem?_take_of_lt hk]

/-- The expansion of the block with the first sixteen differences applied has all differences. -/
theorem W_xor (B : Bytes) {D : List W32} (h : Valid D) {t : Nat} (ht : t < 80) :
    Sha1.W (bytesOfWordsBE ((List.range 16).map fun i => wordBE 32 B i ^^^ D.getD i 0)) t =
      Sha1.W B t ^^^ D.getD t 0 := by
  induction t using Nat.strongRecOn with
  | ind t ih =>
    by_cases h16 : t < 16
    · rw [Sha1.W_lt _ h16, Sha1.W_lt _ h16, wordBE_bytes _ 0 (by simpa using h16)]
      simp [List.getD_eq_getElem?_getD, h16]
    · obtain ⟨u, rfl⟩ : ∃ u, t = u + 16 := ⟨t - 16, by omega⟩
      rw [Sha1.W_ge _ (by omega), Sha1.W_ge _ (by omega), ih (u + 13) (by omega) (by omega),
        ih (u + 8) (by omega) (by omega), ih (u + 2) (by omega) (by omega), ih u (by omega) (by omega),
        h.exp u (by omega), ← rotl1_xor]
      congr 1
      ac_rfl

theorem W_ge80 (B : Bytes) {t : Nat} (h : 80 ≤ t) : Sha1.W B t = 0 := by
  have := Sha1.length_schedule B
  unfold Sha1.W
  rw [List.getD_eq_getElem?_getD, List.getElem?_eq_none (by omega)]
  rfl

theorem arr_ge80 (w : Arr 32 80) {t : Nat} (h : 80 ≤ t) : w.get t = 0 := by
  have := w.2
  unfold Arr.get
  rw [List.getD_eq_getElem?_getD, List.getElem?_eq_none (by omega)]
  rfl

/-- The `m2` computed by `compress` is the expansion of the sibling block. -/
theorem m2_eq (B : Bytes) {D : List W32} (h : Valid D) {m1 : Arr 32 80} (hm : m1.get = Sha1.W B) :
    (Arr.ofFn 80 fun i => m1.get i ^^^ D.getD i 0).get =
      Sha1.W (bytesOfWordsBE ((List.range 16).map fun i => wordBE 32 B i ^^^ D.getD i 0)) := by
  funext t
  by_cases ht : t < 80
  · rw [Arr.get_ofFn _ ht, W_xor B h ht, hm]
  · rw [W_ge80 _ (by omega), arr_ge80 _ (by omega)]

/-! ### one vector -/

theorem xor5_zero (x y : V5 W32) : xor5 x y = 0 ↔ x = y := by
  unfold xor5
  constructor
  · intro h
    have : ∀ i (hi : i < 32), x.x0[i] = y.x0[i] ∧ x.x1[i] = y.x1[i] ∧ x.x2[i] = y.x2[i] ∧ x.x3[i] = y.x3[i] ∧ x.x4[i] = y.x4[i] := by
      intro i hi
      have e := congrArg (fun z : W32 => z[i]) h
      simp only [BitVec.getElem_or, BitVec.getElem_xor, BitVec.getElem_zero] at e
      revert e
      cases x.x0[i] <;> cases y.x0[i] <;> cases x.x1[i] <;> cases y.x1[i] <;> simp <;>
        cases x.x2[i] <;> cases y.x2[i] <;> simp <;> cases x.x3[i] <;> cases y.x3[i] <;> simp
    ext1 <;> (ext i hi; have := this i hi; simp [this])
  · rintro rfl
    simp

/-- The vector of a table entry explains the block. -/
def Fits (reduced : Bool) (H : V5 W32) (B : Bytes) (i : Info) : Prop :=
  ∃ H', Spec.Sha1.rounds (Sha1.W (bytesOfWordsBE ((List.range 16).map fun j => wordBE 32 B j ^^^ i.dm.getD j 0))) i.testt.steps H' =
      Spec.Sha1.rounds (Sha1.W B) i.testt.steps H ∧
    (Spec.Sha1.compress H' (bytesOfWordsBE ((List.range 16).map fun j => wordBE 32 B j ^^^ i.dm.getD j 0)) =
      Spec.Sha1.compress H B ∨ (reduced = true ∧ H' = H))

theorem compress_eq (H : V5 W32) (B : Bytes) :
    Spec.Sha1.compress H B = H.zip (· + ·) (Spec.Sha1.rounds (Sha1.W B) 80 H) := rfl

theorem recompression_spec (T : Testt) (M : Nat → W32) (state : V5 W32) :
    At M (recompressionStep T M state).1 T.steps state ∧
    (recompressionStep T M state).2 = (recompressionStep T M state).1.zip (· + ·)
      (Spec.Sha1.rounds M 80 (recompressionStep T M state).1) := by
  cases T
  · exact recompressFast58_spec M state
  · exact recompressFast65_spec M state

theorem test_iff {reduced : Bool} {H : V5 W32} {B : Bytes} {i : Info} (hi : i ∈ SHA1_DVS) {m1 : Arr 32 80}
    (hm : m1.get = Sha1.W B) {st : V5 W32} (hst : At (Sha1.W B) H i.testt.steps st) :
    (xor5 (recompressionStep i.testt (Arr.ofFn 80 fun j => m1.get j ^^^ i.dm.getD j 0).get st).2 (Spec.Sha1.compress H B) = 0 ∨
      (reduced = true ∧ xor5 H (recompressionStep i.testt (Arr.ofFn 80 fun j => m1.get j ^^^ i.dm.getD j 0).get st).1 = 0)) ↔
    Fits reduced H B i := by
  rw [m2_eq B (valid_of_mem hi) hm, xor5_zero, xor5_zero]
  obtain ⟨h1, h2⟩ := recompression_spec i.testt
    (Sha1.W (bytesOfWordsBE ((List.range 16).map fun j => wordBE 32 B j ^^^ i.dm.getD j 0))) st
  unfold Fits
  generalize bytesOfWordsBE ((List.range 16).map fun j => wordBE 32 B j ^^^ i.dm.getD j 0) = B' at *
  generalize recompressionStep i.testt (Sha1.W B') st = r at *
  have hr : Spec.Sha1.rounds (Sha1.W B') i.testt.steps r.1 = Spec.Sha1.rounds (Sha1.W B) i.testt.steps H := by
    unfold At at h1 hst
    rw [← h1, ← hst]
  rw [h2, ← compress_eq]
  constructor
  · rintro (h | ⟨h, h'⟩)
    · exact ⟨r.1, hr, .inl h⟩
    · exact ⟨r.1, hr, .inr ⟨h, h'.symm⟩⟩
  · rintro ⟨H', e, h⟩
    have : H' = r.1 := rounds_inj (e.trans hr.symm)
    subst this
    rcases h with h | ⟨h, h'⟩
    · exact .inl h
    · exact .inr ⟨h, h'.symm⟩

/-! ### the loop over vectors -/

/-- Configuration and flag of a detection state. -/
def Detection.cfg (x : Detection) : Bool × Bool × Bool := (x.safeHash, x.ubcCheck, x.reducedRoundCollision)

theorem mask_bit (mask : W32) {k : Nat} (hk : k < 32) : mask &&& (1#32 <<< k) ≠ 0 ↔ mask.getLsbD k = true := by
  have := single_zero (m := mask) hk
  rw [show bitsOf [k] = 1#32 <<< k by simp [bitsOf]] at this
  rw [ne_eq, this, Bool.not_eq_false]

theorem tryDvs_spec (mask : W32) (H : V5 W32) (B : Bytes) (l : List Info) (hl : ∀ i ∈ l, i ∈ SHA1_DVS)
    (hb : ∀ i ∈ l, i.maskb < 32) (ctx : Detection) (hm : ctx.m1.get = Sha1.W B) (h1 : ctx.ihv1 = H)
    (h58 : At (Sha1.W B) H 58 ctx.state58) (h65 : At (Sha1.W B) H 65 ctx.state65) :
    let r := tryDvs mask l (Spec.Sha1.compress H B) ctx
    r.2.cfg = ctx.cfg ∧
    ((∃ i ∈ l, mask.getLsbD i.maskb = true ∧ Fits ctx.reducedRoundCollision H B i) →
      r.1 = (if ctx.safeHash then Spec.Sha1.compress (Spec.Sha1.compress (Spec.Sha1.compress H B) B) B
        else Spec.Sha1.compress H B) ∧ r.2.foundCollision = true) ∧
    ((¬ ∃ i ∈ l, mask.getLsbD i.maskb = true ∧ Fits ctx.reducedRoundCollision H B i) →
      r.1 = Spec.Sha1.compress H B ∧ r.2.foundCollision = ctx.foundCollision) := by
  induction l generalizing ctx with
  | nil => simp [tryDvs]
  | cons i l ih =>
    have hi := hl i (by simp)
    have hbi := hb i (by simp)
    have hst : At (Sha1.W B) H i.testt.steps (ctx.saved i.testt) := by
      cases i.testt
      · exact h58
      · exact h65
    have hsv : ∀ m t, ({ ctx with m2 := m } : Detection).saved t = ctx.saved t := fun m t => by cases t <;> rfl
    have key := test_iff (reduced := ctx.reducedRoundCollision) hi hm hst
    simp only [tryDvs, hsv]
    by_cases hbit : mask &&& (1#32 <<< i.maskb) ≠ 0
    · rw [if_pos hbit]
      have hbit' := (mask_bit mask hbi).1 hbit
      rw [← h1] at key
      by_cases hf : Fits ctx.reducedRoundCollision H B i
      · rw [h1] at key
        have hcond := key.2 hf
        rw [← h1] at hcond
        rw [h1] at hcond
        simp only [h1]
        rw [if_pos hcond]
        refine ⟨?_, fun _ => ?_, fun hn => absurd ⟨i, by simp, hbit', hf⟩ hn⟩
        · split <;> rfl
        · split
          · refine ⟨?_, rfl⟩
            simp only [hm]
            rw [compressionW_eq, compressionW_eq]
            rfl
          · exact ⟨rfl, rfl⟩
      · rw [h1] at key
        have hcond := fun h => hf (key.1 h)
        simp only [h1]
        rw [if_neg hcond]
        have := ih (fun j hj => hl j (by simp [hj])) (fun j hj => hb j (by simp [hj]))
          { ctx with
            m2 := Arr.ofFn 80 fun j => ctx.m1.get j ^^^ i.dm.getD j 0
            ihv2 := (recompressionStep i.testt (Arr.ofFn 80 fun j => ctx.m1.get j ^^^ i.dm.getD j 0).get
              (ctx.saved i.testt)).1 } hm h1 h58 h65
        simp only [h1] at this
        refine ⟨this.1, fun he => ?_, fun hn => ?_⟩
        · apply this.2.1
          obtain ⟨j, hj, hb1, hf1⟩ := he
          rcases List.mem_cons.1 hj with rfl | hj
          · exact absurd hf1 hf
          · exact ⟨j, hj, hb1, hf1⟩
        · exact this.2.2 fun ⟨j, hj, h⟩ => hn ⟨j, by simp [hj], h⟩
    · rw [if_neg hbit]
      have hbit' : ¬ mask.getLsbD i.maskb = true := fun h => hbit ((mask_bit mask hbi).2 h)
      have := ih (fun j hj => hl j (by simp [hj])) (fun j hj => hb j (by simp [hj])) ctx hm h1 h58 h65
      refine ⟨this.1, fun he => ?_, fun hn => ?_⟩
      · apply this.2.1
        obtain ⟨j, hj, hb1, hf1⟩ := he
        rcases List.mem_cons.1 hj with rfl | hj
        · exact absurd hb1 hbit'
        · exact ⟨j, hj, hb1, hf1⟩
      · exact this.2.2 fun ⟨j, hj, h⟩ => hn ⟨j, by simp [hj], h⟩

/-! ### one block -/

theorem dvs_get {k : Nat} (hk : k < 32) : ∃ i v, SHA1_DVS[k]? = some i ∧ vectors[k]? = some v ∧ i.maskb = k ∧
    i.testt.steps = v.T ∧ i.dm = dm v := by
  have hl : SHA1_DVS.length = 32 := rfl
  have hv := length_vectors
  have e1 := congrArg (fun l => l[k]?) dvs_table
  have e2 := congrArg (fun l => l[k]?) dvs_bits
  simp only [List.getElem?_map, List.getElem?_eq_getElem (show k < SHA1_DVS.length by omega),
    List.getElem?_eq_getElem (show k < vectors.length by omega), Option.map_some, Option.some.injEq, Prod.mk.injEq,
    List.getElem?_range hk] at e1 e2
  exact ⟨_, _, List.getElem?_eq_getElem (by omega), List.getElem?_eq_getElem (by omega), e2, e1.1, e1.2⟩

theorem mem_dvs {i : Info} (h : i ∈ SHA1_DVS) : i.maskb < 32 ∧ SHA1_DVS[i.maskb]? = some i := by
  obtain ⟨k, hk, rfl⟩ := List.getElem_of_mem h
  have hl : SHA1_DVS.length = 32 := rfl
  obtain ⟨i, v, h1, -, h2, -⟩ := dvs_get (k := k) (by omega)
  rw [List.getElem?_eq_getElem hk, Option.some.injEq] at h1
  subst h1
  rw [h2]
  exact ⟨by omega, List.getElem?_eq_getElem hk⟩

theorem hit_iff {ubc reduced : Bool} {H : V5 W32} {B : Bytes} :
    Hit ubc reduced H B ↔ ∃ i ∈ SHA1_DVS,
      (if ubc then ubcCheck (Sha1.W B) else 0xFFFFFFFF#32).getLsbD i.maskb = true ∧ Fits reduced H B i := by
  have hbit : ∀ k < 32, (if ubc then ubcCheck (Sha1.W B) else 0xFFFFFFFF#32).getLsbD k = true ↔
      (ubc = true → ∀ c ∈ Ubc.conds.getD k [], Ubc.holds (Sha1.W B) c = true) := by
    intro k hk
    cases ubc
    · have : ∀ k < 32, (0xFFFFFFFF#32).getLsbD k = true := by decide
      simp [this k hk]
    · simp only [if_true, ubcCheck_bit _ hk, List.all_eq_true, true_implies]
  constructor
  · rintro ⟨k, hk, v, hv, hc, H', he⟩
    obtain ⟨i, v', h1, h2, h3, h4, h5⟩ := dvs_get hk
    rw [hv] at h2
    injection h2 with h2
    subst h2
    refine ⟨i, List.mem_of_getElem? h1, ?_, H', ?_⟩
    · rw [h3]; exact (hbit k hk).2 hc
    · rw [h4, h5]; exact he
  · rintro ⟨i, hi, hb, H', he⟩
    obtain ⟨hk, hi'⟩ := mem_dvs hi
    obtain ⟨i', v, h1, h2, h3, h4, h5⟩ := dvs_get hk
    rw [hi'] at h1
    injection h1 with h1
    subst h1
    refine ⟨i.maskb, hk, v, h2, (hbit _ hk).1 hb, H', ?_⟩
    rw [h4, h5] at he
    exact he

/-- One block of the code is one step of the specification. -/
theorem compress1_spec (H : V5 W32) (ctx : Detection) (B : Bytes) :
    (compress1 (H, ctx) B).2.cfg = ctx.cfg ∧
    ((compress1 (H, ctx) B).1, (compress1 (H, ctx) B).2.foundCollision) =
      Spec.Sha1Cd.step ctx.safeHash ctx.ubcCheck ctx.reducedRoundCollision (H, ctx.foundCollision) B := by
  obtain ⟨c1, c2, c3, c4⟩ := compressionStates_spec H B ctx.m1
  have hm : (compressionStates H (wordBE 32 B) ctx.m1).w.get = Sha1.W B := by
    funext t
    by_cases ht : t < 80
    · exact c2 t ht
    · rw [W_ge80 _ (by omega), arr_ge80 _ (by omega)]
  have main := fun mask => tryDvs_spec mask H B SHA1_DVS (fun _ h => h) (fun i h => (mem_dvs h).1)
    { ctx with
      ihv1 := H
      m1 := (compressionStates H (wordBE 32 B) ctx.m1).w
      state58 := (compressionStates H (wordBE 32 B) ctx.m1).state58
      state65 := (compressionStates H (wordBE 32 B) ctx.m1).state65 } hm rfl c3 c4
  have hif : compress1 (H, ctx) B = tryDvs (if ctx.ubcCheck then ubcCheck (Sha1.W B) else 0xFFFFFFFF#32) SHA1_DVS
      (Spec.Sha1.compress H B)
      { ctx with
        ihv1 := H
        m1 := (compressionStates H (wordBE 32 B) ctx.m1).w
        state58 := (compressionStates H (wordBE 32 B) ctx.m1).state58
        state65 := (compressionStates H (wordBE 32 B) ctx.m1).state65 } := by
    simp only [compress1, c1, hm]
    by_cases h0 : (if ctx.ubcCheck then ubcCheck (Sha1.W B) else 0xFFFFFFFF#32) ≠ 0
    · rw [if_pos h0]
    · rw [if_neg h0]
      simp only [ne_eq, Decidable.not_not] at h0
      have : ∀ (l : List Info) (s : V5 W32) (x : Detection), tryDvs 0 l s x = (s, x) := by
        intro l
        induction l with
        | nil => intros; rfl
        | cons i l ih => intro s x; rw [tryDvs, if_neg (by simp), ih]
      rw [h0, this]
  rw [hif]
  obtain ⟨m1, m2, m3⟩ := main (if ctx.ubcCheck then ubcCheck (Sha1.W B) else 0xFFFFFFFF#32)
  refine ⟨m1, ?_⟩
  unfold Spec.Sha1Cd.step
  by_cases hh : Hit ctx.ubcCheck ctx.reducedRoundCollision H B
  · rw [if_pos hh]
    have := m2 (hit_iff.1 hh)
    exact Prod.ext this.1 this.2
  · rw [if_neg hh]
    have := m3 (fun h => hh (hit_iff.2 h))
    exact Prod.ext this.1 this.2

theorem compress_spec (blks : List Bytes) (H : V5 W32) (ctx : Detection) :
    (blks.foldl compress1 (H, ctx)).2.cfg = ctx.cfg ∧
    ((blks.foldl compress1 (H, ctx)).1, (blks.foldl compress1 (H, ctx)).2.foundCollision) =
      blks.foldl (Spec.Sha1Cd.step ctx.safeHash ctx.ubcCheck ctx.reducedRoundCollision) (H, ctx.foundCollision) := by
  induction blks generalizing H ctx with
  | nil => exact ⟨rfl, rfl⟩
  | cons B blks ih =>
    obtain ⟨h1, h2⟩ := compress1_spec H ctx B
    simp only [List.foldl_cons]
    rw [← h2]
    have := ih (compress1 (H, ctx) B).1 (compress1 (H, ctx) B).2
    simp only [Detection.cfg, Prod.mk.injEq] at h1 this ⊢
    rw [h1.1, h1.2.1, h1.2.2] at this
    exact this

/-! ### padding -/

theorem set8 (l : Bytes) (h : l.length = 64) (x : W64) :
    ((((((((l.set 56 ((x >>> 56).setWidth 8)).set 57 ((x >>> 48).setWidth 8)).set 58 ((x >>> 40).setWidth 8)).set 59
      ((x >>> 32).setWidth 8)).set 60 ((x >>> 24).setWidth 8)).set 61 ((x >>> 16).setWidth 8)).set 62
      ((x >>> 8).setWidth 8)).set 63 (x.setWidth 8)) = l.take 56 ++ beBytes 8 x.toNat := by
  have hb : beBytes 8 x.toNat = [(x >>> 56).setWidth 8, (x >>> 48).setWidth 8, (x >>> 40).setWidth 8,
      (x >>> 32).setWidth 8, (x >>> 24).setWidth 8, (x >>> 16).setWidth 8, (x >>> 8).setWidth 8, x.setWidth 8] := by
    simp only [beBytes, leBytes, List.reverse_cons, List.reverse_nil, List.nil_append, List.cons_append,
      List.cons.injEq, and_true]
    refine ⟨?_, ?_, ?_, ?_, ?_, ?_, ?_, ?_⟩ <;>
      (apply BitVec.eq_of_toNat_eq; simp [Nat.shiftRight_eq_div_pow, Nat.div_div_eq_div_mul])
  rw [hb]
  apply List.ext_getElem?
  intro i
  simp only [List.getElem?_set, List.length_set, h]
  by_cases hi : i < 56
  · rw [List.getElem?_append_left (by simp; omega), List.getElem?_take_of_lt hi]
    simp (disch := omega) only [if_neg]
  · by_cases h64 : i < 64
    · rw [List.getElem?_append_right (by rw [List.length_take, h]; omega)]
      simp only [List.length_take, h]
      have : i = 56 ∨ i = 57 ∨ i = 58 ∨ i = 59 ∨ i = 60 ∨ i = 61 ∨ i = 62 ∨ i = 63 := by omega
      rcases this with rfl | rfl | rfl | rfl | rfl | rfl | rfl | rfl <;> simp
    · rw [List.getElem?_eq_none (l := List.take 56 l ++ _) (by simp [h]; omega)]
      simp (disch := omega) only [if_neg]
      rw [List.getElem?_eq_none (by omega)]

theorem finalizeChecked_eq (x : V5 W32 × Detection) (total : W64) (L : Bytes) (hL : L.length < 64) :
    finalizeChecked x total L =
      (chunks 64 (mdPad 64 0x80 (beBytes 8 ((total + BitVec.ofNat 64 L.length) <<< 3).toNat) L)).foldl compress1 x := by
  have h0 : overwrite (List.replicate 64 (0 : Byte)) 0 L = L ++ List.replicate (64 - L.length) 0 := by
    rw [overwrite, Nat.zero_add, List.drop_replicate]; rfl
  have hP : ∀ n, SHA1_PADDING.take (n + 1) = 0x80 :: List.replicate (min n 63) 0 := by
    intro n
    rw [SHA1_PADDING, List.take_succ_cons, List.take_replicate]
  have hD : ∀ n m, ((0x80 : Byte) :: List.replicate m (0 : Byte)).drop (n + 1) = List.replicate (m - n) 0 := by
    intro n m; simp
  unfold finalizeChecked
  simp only [h0, compress, List.foldl_cons, List.foldl_nil]
  generalize hT : (total + BitVec.ofNat 64 L.length) <<< 3 = T
  generalize hn : L.length = n at *
  by_cases h56 : 56 ≤ n
  · simp only [if_pos h56]
    have e1 : (SHA1_PADDING.take (120 - n)).take (64 - n) = 0x80 :: List.replicate (63 - n) 0 := by
      rw [List.take_take, Nat.min_eq_left (by omega), show 64 - n = (63 - n) + 1 by omega, hP, Nat.min_eq_left (by omega)]
    have e2 : (SHA1_PADDING.take (120 - n)).drop (64 - n) = List.replicate 56 0 := by
      rw [show 120 - n = (119 - n) + 1 by omega, hP, show 64 - n = (63 - n) + 1 by omega, hD]
      congr 1
      omega
    have e3 : overwrite (L ++ List.replicate (64 - n) (0 : Byte)) n (0x80 :: List.replicate (63 - n) 0) =
        L ++ [0x80] ++ List.replicate (63 - n) 0 := by
      rw [overwrite_full (by simp; omega), List.take_left' hn]
      simp
    rw [e1, e2, e3]
    rw [set8 _ (by simp [overwrite]; omega)]
    have e4 : (overwrite (L ++ [0x80] ++ List.replicate (63 - n) (0 : Byte)) 0 (List.replicate 56 0)).take 56 =
        List.replicate 56 0 := by
      simp [overwrite]
    rw [e4]
    have hz : zeroFill 64 (L.length + 1 + 8) = (63 - n) + 56 := by
      rw [hn, zeroFill]; omega
    have hpad : mdPad 64 0x80 (beBytes 8 T.toNat) L = (L ++ [0x80] ++ List.replicate (63 - n) 0) ++
        (List.replicate 56 0 ++ beBytes 8 T.toNat) := by
      simp only [mdPad, length_beBytes, hz]
      rw [← List.replicate_append_replicate]; simp only [List.append_assoc]
    have hl1 : (L ++ [0x80] ++ List.replicate (63 - n) (0 : Byte)).length = 64 := by simp [hn]; omega
    have hl2 : (List.replicate 56 (0 : Byte) ++ beBytes 8 T.toNat).length = 64 := by simp
    rw [hpad, chunks_append (by decide) _ (by rw [hl1]; exact Nat.dvd_refl _), chunks_single (by decide) hl1,
      chunks_single (by decide) hl2]
    rfl
  · simp only [if_neg h56]
    have e1 : SHA1_PADDING.take (56 - n) = 0x80 :: List.replicate (55 - n) 0 := by
      rw [show 56 - n = (55 - n) + 1 by omega, hP, Nat.min_eq_left (by omega)]
    rw [e1]
    have e3 : overwrite (L ++ List.replicate (64 - n) (0 : Byte)) n (0x80 :: List.replicate (55 - n) 0) =
        L ++ [0x80] ++ List.replicate (55 - n) 0 ++ List.replicate 8 0 := by
      unfold overwrite
      rw [List.take_left' hn, show n + ((0x80 : Byte) :: List.replicate (55 - n) 0).length = L.length + (56 - n) by simp; omega,
        List.drop_append, List.drop_replicate, List.drop_eq_nil_of_le (by omega),
        show 64 - n - (L.length + (56 - n) - L.length) = 8 by omega]
      simp only [List.append_assoc, List.nil_append, List.cons_append]
    rw [e3, set8 _ (by simp; omega)]
    have e4 : (L ++ [0x80] ++ List.replicate (55 - n) (0 : Byte) ++ List.replicate 8 0).take 56 =
        L ++ [0x80] ++ List.replicate (55 - n) 0 := by
      exact List.take_left' (by simp; omega)
    rw [e4]
    have hz : zeroFill 64 (L.length + 1 + 8) = 55 - n := by
      rw [hn, zeroFill]; omega
    have hpad : mdPad 64 0x80 (beBytes 8 T.toNat) L = L ++ [0x80] ++ List.replicate (55 - n) 0 ++ beBytes 8 T.toNat := by
      simp only [mdPad, length_beBytes, hz]
    have hl1 : (L ++ [0x80] ++ List.replicate (55 - n) (0 : Byte) ++ beBytes 8 T.toNat).length = 64 := by
      simp [hn]; omega
    rw [hpad, chunks_single (by decide) hl1]
    rfl

/-! ### the hasher -/

/-- The detection state has the builder's configuration. -/
def CfgInv (x : Builder) (s : State) : Prop :=
  match s.detection with
  | some ctx => x.detectCollision = true ∧ ctx.cfg = (x.safeHash, x.ubcCheck, x.reducedRoundCollision)
  | none => x.detectCollision = false

theorem lawful (x : Builder) : (sha1Checked x).Lawful (CfgInv x) where
  bs_pos := (by decide : 0 < 64)
  nil := fun s => by
    obtain ⟨h, n, d⟩ := s
    cases d <;> simp [sha1Checked, updateBlocks, compress, Sha1.compressSoft]
  app := fun s a b => by
    obtain ⟨h, n, d⟩ := s
    cases d <;> simp [sha1Checked, updateBlocks, compress, Sha1.compressSoft, BitVec.ofNat_add, BitVec.add_assoc]
  inv_init := by
    obtain ⟨d, a, b, c⟩ := x
    cases d <;> simp [sha1Checked, CfgInv, Builder.build, Builder.detection, Detection.cfg]
  inv_update := fun s blks _ h => by
    obtain ⟨H, n, d⟩ := s
    cases d with
    | none => exact h
    | some ctx =>
      simp only [CfgInv, sha1Checked, updateBlocks, compress] at h ⊢
      rw [(compress_spec blks H ctx).1]
      exact h
  reset_eq := fun s h => by
    obtain ⟨H, n, d⟩ := s
    obtain ⟨a, b, c, e⟩ := x
    cases d with
    | none => simp only [CfgInv] at h; subst h; rfl
    | some ctx =>
      simp only [CfgInv, Detection.cfg, Prod.mk.injEq] at h
      obtain ⟨rfl, rfl, rfl, rfl⟩ := h
      rfl
  fin_congr := fun s b b' h h' hc => by
    obtain ⟨H, n, d⟩ := s
    cases d with
    | none =>
      simp only [sha1Checked, tryFinalize, finalizeInner, BlockBuffer.len64PaddingBE]
      rw [pos_congr h h' hc, digestPad_congr (bs := 64) h h' hc (by simp)]
    | some ctx =>
      simp only [sha1Checked, tryFinalize, finalizeInner]
      rw [hc]

/-- The result value for a digest and a flag. -/
def resultOf (x : Builder) (r : Bytes × Bool) : Result :=
  if r.2 then if x.safeHash then .mitigated r.1 else .collision r.1 else .ok r.1

theorem total_eq (n : Nat) :
    ((64 : W64) * (0 + BitVec.ofNat 64 (n / 64)) + BitVec.ofNat 64 (n % 64)) <<< 3 = BitVec.ofNat 64 (8 * n) := by
  have h := bitLen_eq 64 64 n
  rw [← h, BitVec.add_comm]
  apply BitVec.eq_of_toNat_eq
  simp [Nat.shiftLeft_eq, Nat.mul_comm, Nat.mul_add]

theorem digest_on (x : Builder) (hx : x.detectCollision = true) (m : Bytes) :
    (sha1Checked x).digest m =
      resultOf x (Spec.Sha1Cd.checked x.safeHash x.ubcCheck x.reducedRoundCollision m) := by
  obtain ⟨b, h1, h2, h3, h4⟩ := Core.digest_eager (lawful x) rfl m
  rw [h4]
  obtain ⟨d, safe, ubc, red⟩ := x
  simp only at hx
  subst hx
  simp only [sha1Checked] at h1 h2 h3 ⊢
  have hlen : b.content.length = m.length % 64 := h1.length_content.trans h3
  have hlt : b.content.length < 64 := by rw [hlen]; exact Nat.mod_lt _ (by decide)
  simp only [updateBlocks, Builder.build, Builder.detection, if_true, tryFinalize, finalizeInner, compress, length_blocks]
  rw [finalizeChecked_eq _ _ _ hlt, hlen, total_eq, beBytes_counter (by decide), ← List.foldl_append]
  have hpad : blocks 64 (m.length / 64) m ++ chunks 64 (mdPad 64 0x80 (beBytes 8 (8 * m.length)) b.content) =
      chunks 64 (Spec.Sha1.pad m) := by
    rw [Spec.Sha1.pad, chunks_mdPad (m := m) (by decide), ← h2]
  rw [hpad]
  obtain ⟨s1, s2⟩ := compress_spec (chunks 64 (Spec.Sha1.pad m)) Sha1.H0
    ⟨safe, ubc, red, false, zero5, zero5, zero80, zero80, zero5, zero5⟩
  simp only [Detection.cfg, Prod.mk.injEq] at s1 s2
  have e1 := congrArg Prod.fst s2
  have e2 := congrArg Prod.snd s2
  simp only at e1 e2
  simp only [resultOf, Spec.Sha1Cd.checked, s1.1, e1, e2]
  rfl

theorem digest_off (x : Builder) (hx : x.detectCollision = false) (m : Bytes) :
    (sha1Checked x).digest m = .ok (Spec.Sha1.sha1 m) := by
  obtain ⟨b, h1, h2, h3, h4⟩ := Core.digest_eager (lawful x) rfl m
  rw [h4]
  obtain ⟨d, safe, ubc, red⟩ := x
  simp only at hx
  subst hx
  simp only [sha1Checked] at h1 h2 h3 ⊢
  simp only [updateBlocks, Builder.build, Builder.detection, Bool.false_eq_true, if_false, tryFinalize, finalizeInner, Sha1.compressSoft_eq,
    BlockBuffer.len64PaddingBE, List.foldl_cons, List.foldl_nil, length_blocks, h3]
  rw [show (64 : W64) = BitVec.ofNat 64 64 from rfl, bitLen_eq, beBytes_counter (by decide)]
  rw [Spec.Sha1.sha1, Spec.Sha1.pad, ← md_finalize (by decide) h1 (by simp) _ _ m h2]
  rfl

end Hashes.Sha1Checked
