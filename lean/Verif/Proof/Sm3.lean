import Verif.Model.Sm3
import Verif.Spec.Sm3
import Verif.Proof.Md
import Verif.Proof.Words
import Verif.Proof.Schedule
/- Helper lemmas: the modelled SM3 equals GB/T 32905. -/
namespace Hashes
namespace Sm3

theorem gg2_eq (x y z : W32) : gg2 x y z = (x &&& y) ||| (~~~x &&& z) := by
  apply BitVec.eq_of_getLsbD_eq
  intro i hi
  simp only [gg2, BitVec.getLsbD_xor, BitVec.getLsbD_and, BitVec.getLsbD_or, BitVec.getLsbD_not, hi]
  cases x.getLsbD i <;> cases y.getLsbD i <;> cases z.getLsbD i <;> rfl

theorem t_eq {j : Nat} (hj : j < 64) : t j = (Spec.Sm3.T j).rotateLeft (j % 32) := by
  have h : ∀ j ∈ List.range 64, t j = (Spec.Sm3.T j).rotateLeft (j % 32) := by decide +kernel
  exact h j (List.mem_range.mpr hj)

/-- Registers A..H before round `j`. -/
def view (j : Nat) (v : V8 W32) : V8 W32 :=
  match j % 4 with
  | 0 => v
  | 1 => ⟨v.x3, v.x0, v.x1, v.x2, v.x7, v.x4, v.x5, v.x6⟩
  | 2 => ⟨v.x2, v.x3, v.x0, v.x1, v.x6, v.x7, v.x4, v.x5⟩
  | _ => ⟨v.x1, v.x2, v.x3, v.x0, v.x5, v.x6, v.x7, v.x4⟩

/-- The macro line of round `j`. -/
def line (j : Nat) : Line :=
  let m : Mac := if j < 16 then .r1 else .r2
  let a : Acc := if j < 12 then .w1 else .w2
  match j % 4 with
  | 0 => ⟨m, 0, 1, 2, 3, 4, 5, 6, 7, j, j, a, j + 4⟩
  | 1 => ⟨m, 3, 0, 1, 2, 7, 4, 5, 6, j, j, a, j + 4⟩
  | 2 => ⟨m, 2, 3, 0, 1, 6, 7, 4, 5, j, j, a, j + 4⟩
  | _ => ⟨m, 1, 2, 3, 0, 5, 6, 7, 4, j, j, a, j + 4⟩

theorem lines_eq : lines = (List.range 64).map line := by decide +kernel

theorem round1_eq {j : Nat} (hj : j < 16) (v : V8 W32) (w w' : W32) :
    (let o := round1 v.x0 v.x1 v.x2 v.x3 v.x4 v.x5 v.x6 v.x7 (t j) w w'
     (⟨o.x3, o.x0, o.x1, o.x2, o.x7, o.x4, o.x5, o.x6⟩ : V8 W32)) = Spec.Sm3.round j w (w ^^^ w') v := by
  simp only [round1, Spec.Sm3.round, Spec.Sm3.FF, Spec.Sm3.GG, hj, if_true, t_eq (show j < 64 by omega), ff1, gg1,
    p0, Spec.Sm3.P0, BitVec.add_comm v.x3, BitVec.add_comm v.x7]

theorem round2_eq {j : Nat} (hj : 16 ≤ j) (hj' : j < 64) (v : V8 W32) (w w' : W32) :
    (let o := round2 v.x0 v.x1 v.x2 v.x3 v.x4 v.x5 v.x6 v.x7 (t j) w w'
     (⟨o.x3, o.x0, o.x1, o.x2, o.x7, o.x4, o.x5, o.x6⟩ : V8 W32)) = Spec.Sm3.round j w (w ^^^ w') v := by
  simp only [round2, Spec.Sm3.round, Spec.Sm3.FF, Spec.Sm3.GG, show ¬ j < 16 by omega, if_false, t_eq hj', ff2, gg2_eq,
    p0, Spec.Sm3.P0, BitVec.add_comm v.x3, BitVec.add_comm v.x7]

/-- The words a line feeds to its round, and the ring it leaves. -/
def feed (x : List W32) (j : Nat) : W32 × W32 × List W32 :=
  if j < 12 then (w1 x j, w1 x (j + 4), x) else (w1 x j, w2 x (j + 4))

/-- Calling a round function by the line's register order, seen by role. -/
theorem call_view (rf : W32 → W32 → W32 → W32 → W32 → W32 → W32 → W32 → V8 W32) (v : V8 W32) (j : Nat) :
    view (j + 1) (call rf v (line j)) =
      (let u := view j v
       let o := rf u.x0 u.x1 u.x2 u.x3 u.x4 u.x5 u.x6 u.x7
       ⟨o.x3, o.x0, o.x1, o.x2, o.x7, o.x4, o.x5, o.x6⟩) := by
  have h4 : j % 4 = 0 ∨ j % 4 = 1 ∨ j % 4 = 2 ∨ j % 4 = 3 := by omega
  obtain ⟨a, b, c, d, e, f, g, h⟩ := v
  unfold line view
  rcases h4 with h4 | h4
  · rw [h4, show (j + 1) % 4 = 1 by omega]
    simp only [call, V8.get0, V8.get1, V8.get2, V8.get3, V8.get4, V8.get5, V8.get6, V8.get7]
    generalize rf _ _ _ _ _ _ _ _ = o
    obtain ⟨p, q, r, s, t, u, v, w⟩ := o
    simp only [V8.set0, V8.set1, V8.set2, V8.set3, V8.set4, V8.set5, V8.set6, V8.set7]
  rcases h4 with h4 | h4
  · rw [h4, show (j + 1) % 4 = 2 by omega]
    simp only [call, V8.get0, V8.get1, V8.get2, V8.get3, V8.get4, V8.get5, V8.get6, V8.get7]
    generalize rf _ _ _ _ _ _ _ _ = o
    obtain ⟨p, q, r, s, t, u, v, w⟩ := o
    simp only [V8.set0, V8.set1, V8.set2, V8.set3, V8.set4, V8.set5, V8.set6, V8.set7]
  rcases h4 with h4 | h4
  · rw [h4, show (j + 1) % 4 = 3 by omega]
    simp only [call, V8.get0, V8.get1, V8.get2, V8.get3, V8.get4, V8.get5, V8.get6, V8.get7]
    generalize rf _ _ _ _ _ _ _ _ = o
    obtain ⟨p, q, r, s, t, u, v, w⟩ := o
    simp only [V8.set0, V8.set1, V8.set2, V8.set3, V8.set4, V8.set5, V8.set6, V8.set7]
  · rw [h4, show (j + 1) % 4 = 0 by omega]
    simp only [call, V8.get0, V8.get1, V8.get2, V8.get3, V8.get4, V8.get5, V8.get6, V8.get7]
    generalize rf _ _ _ _ _ _ _ _ = o
    obtain ⟨p, q, r, s, t, u, v, w⟩ := o
    simp only [V8.set0, V8.set1, V8.set2, V8.set3, V8.set4, V8.set5, V8.set6, V8.set7]

theorem line_proj (j : Nat) : (line j).mac = (if j < 16 then .r1 else .r2) ∧
    (line j).acc = (if j < 12 then .w1 else .w2) ∧ (line j).t = j ∧ (line j).w = j ∧ (line j).w' = j + 4 := by
  have h4 : j % 4 = 0 ∨ j % 4 = 1 ∨ j % 4 = 2 ∨ j % 4 = 3 := by omega
  unfold line
  rcases h4 with h4 | h4 | h4 | h4 <;> rw [h4] <;> exact ⟨rfl, rfl, rfl, rfl, rfl⟩

theorem step_view {j : Nat} (hj : j < 64) (v : V8 W32) (x : List W32) :
    view (j + 1) (step (v, x) (line j)).1 =
      Spec.Sm3.round j (feed x j).1 ((feed x j).1 ^^^ (feed x j).2.1) (view j v) ∧
    (step (v, x) (line j)).2 = (feed x j).2.2 := by
  obtain ⟨e1, e2, e3, e4, e5⟩ := line_proj j
  simp only [step, call_view, e1, e2, e3, e4, e5]
  have hf : fetch (if j < 12 then Acc.w1 else Acc.w2) x (j + 4) = (feed x j).2 ∧ w1 x j = (feed x j).1 := by
    unfold feed; split <;> exact ⟨rfl, rfl⟩
  rw [hf.1, hf.2]
  refine ⟨?_, rfl⟩
  by_cases h : j < 16
  · simp only [h, if_true, roundFn]
    exact round1_eq h _ _ _
  · simp only [h, if_false, roundFn]
    exact round2_eq (by omega) hj _ _ _

/-- Schedule word by index. -/
def W (block : Bytes) (t : Nat) : W32 := (Spec.Sm3.schedule block).getD t 0

theorem W_lt (block : Bytes) {t : Nat} (h : t < 16) : W block t = wordBE 32 block t := by
  rw [W, Spec.Sm3.schedule, expand_getD_lt _ _ _ _ (by simpa using h)]
  simp [List.getD_eq_getElem?_getD, h]

theorem W_ge (block : Bytes) {t : Nat} (h : 16 ≤ t) (h2 : t < 68) :
    W block t = Spec.Sm3.P1 (W block (t - 16) ^^^ W block (t - 9) ^^^ (W block (t - 3)).rotateLeft 15) ^^^
      (W block (t - 13)).rotateLeft 7 ^^^ W block (t - 6) := by
  rw [W, Spec.Sm3.schedule, expand_getD_ge _ _ _ _ (by simpa using h) (by simp; omega)]
  have hl : ∀ j, j < t → ((Spec.Sm3.schedule block).take t).reverse.getD j 0 = W block (t - 1 - j) := fun j hj => by
    rw [getD_reverse_take _ _ hj (by simp [Spec.Sm3.schedule, length_expand]; omega)]; rfl
  have e := fun j (hj : j < t) => hl j hj
  simp only [Spec.Sm3.schedule] at e
  rw [e 15 (by omega), e 8 (by omega), e 2 (by omega), e 12 (by omega), e 5 (by omega)]
  rfl

attribute [local irreducible] W

theorem and15 (i : Nat) : i &&& 0x0f = i % 16 := Nat.and_two_pow_sub_one_eq_mod i 4

/-- The ring holds the last sixteen words before `hi`. -/
def Ring (block : Bytes) (x : List W32) (hi : Nat) : Prop :=
  x.length = 16 ∧ ∀ t, t < hi → hi ≤ t + 16 → x.getD (t % 16) 0 = W block t

theorem Ring.w1 {block x hi} (r : Ring block x hi) {t : Nat} (h1 : t < hi) (h2 : hi ≤ t + 16) :
    w1 x t = W block t := by
  rw [Sm3.w1, and15]; exact r.2 t h1 h2

theorem Ring.w2 {block x hi} (r : Ring block x hi) (h1 : 16 ≤ hi) (h2 : hi < 68) :
    (w2 x hi).1 = W block hi ∧ Ring block (w2 x hi).2 (hi + 1) := by
  have e0 : Sm3.w1 x hi = W block (hi - 16) := by
    rw [← r.w1 (t := hi - 16) (by omega) (by omega), Sm3.w1, Sm3.w1, and15, and15]
    congr 1; omega
  have e : (Sm3.w2 x hi).1 = W block hi := by
    simp only [Sm3.w2]
    rw [e0, r.w1 (by omega) (by omega), r.w1 (by omega) (by omega), r.w1 (by omega) (by omega),
      r.w1 (by omega) (by omega), W_ge block h1 h2]
    rfl
  refine ⟨e, ?_, fun t ht1 ht2 => ?_⟩
  · simp only [Sm3.w2, List.length_set]; exact r.1
  · have e2 : (Sm3.w2 x hi).2 = x.set (hi % 16) (W block hi) := by
      rw [← e, ← and15]; rfl
    rw [e2]
    have hl := r.1
    by_cases hc : t = hi
    · subst hc
      simp [List.getD_eq_getElem?_getD, hl, Nat.mod_lt]
    · rw [← r.2 t (by omega) (by omega)]
      simp only [List.getD_eq_getElem?_getD]
      rw [List.getElem?_set_ne (by omega)]

theorem ring_init (block : Bytes) : Ring block ((List.range 16).map (wordBE 32 block)) 16 := by
  refine ⟨by simp, fun t h1 h2 => ?_⟩
  rw [W_lt block h1, Nat.mod_eq_of_lt h1]
  simp [List.getD_eq_getElem?_getD, h1]

theorem steps_eq (block : Bytes) (x : List W32) (hx : Ring block x 16) (n : Nat) (hn : n ≤ 64) (v : V8 W32) :
    view n (((List.range n).map line).foldl step (v, x)).1 = Spec.Sm3.rounds (W block) n v ∧
    Ring block (((List.range n).map line).foldl step (v, x)).2 (max 16 (n + 4)) := by
  induction n with
  | zero => exact ⟨rfl, hx⟩
  | succ n ih =>
    obtain ⟨ih1, ih2⟩ := ih (by omega)
    rw [List.range_succ, List.map_append, List.foldl_append]
    simp only [List.map_cons, List.map_nil, List.foldl_cons, List.foldl_nil]
    generalize ((List.range n).map line).foldl step (v, x) = r at *
    obtain ⟨s1, s2⟩ := step_view (j := n) (by omega) r.1 r.2
    rw [s1, s2, ih1]
    unfold feed
    by_cases h : n < 12
    · simp only [h, if_true]
      rw [show max 16 (n + 4) = 16 by omega] at ih2
      rw [show max 16 (n + 1 + 4) = 16 by omega]
      refine ⟨?_, ih2⟩
      rw [ih2.w1 (by omega) (by omega), ih2.w1 (by omega) (by omega)]
      rfl
    · simp only [h, if_false]
      rw [show max 16 (n + 4) = n + 4 by omega] at ih2
      rw [show max 16 (n + 1 + 4) = n + 4 + 1 by omega]
      obtain ⟨e1, e2⟩ := ih2.w2 (by omega) (by omega)
      refine ⟨?_, e2⟩
      rw [ih2.w1 (by omega) (by omega), e1]
      rfl

theorem compress_eq (s : V8 W32) (block : Bytes) : compress s block = Spec.Sm3.compress s block := by
  have h := (steps_eq block _ (ring_init block) 64 (by decide) s).1
  simp only [compress, compressU32, Spec.Sm3.compress, lines_eq]
  have e : ∀ v : V8 W32, view 64 v = v := fun v => rfl
  rw [e] at h
  rw [h]
  unfold W
  rfl

theorem lawful : sm3.Lawful (fun _ => True) where
  bs_pos := by decide
  nil := fun s => by simp [sm3, updateBlocks]
  app := fun s x y => by simp [sm3, updateBlocks, BitVec.ofNat_add, BitVec.add_assoc]
  inv_init := trivial
  inv_update := fun _ _ _ _ => trivial
  reset_eq := fun _ _ => rfl
  fin_congr := fun s b b' h h' hc => by
    simp only [sm3, finalize, BlockBuffer.len64PaddingBE] at *
    rw [pos_congr h h' hc, digestPad_congr (bs := 64) h h' hc (by simp)]

theorem serLawful : sm3.SerLawful (fun _ => True) where
  bs_le := by decide
  len := fun s _ => by simp [sm3, serialize, length_bytesOfWordsLE, V8.toList]
  round := fun s _ => by
    simp only [sm3, serialize, deserialize]
    rw [if_pos (by simp [length_bytesOfWordsLE, V8.toList])]
    have h : ∀ i (hi : i < 8), wordLE 32 (bytesOfWordsLE s.h.toList ++ leBytes 8 s.blockLen.toNat) i =
      s.h.toList.getD i 0 := fun i hi => wordLE_append (by decide) _ _ _ (by simpa [V8.toList] using hi)
    rw [List.drop_left' (by simp [length_bytesOfWordsLE, V8.toList]), counter_round (by decide)]
    simp only [V8.ofFn, h 0 (by decide), h 1 (by decide), h 2 (by decide), h 3 (by decide), h 4 (by decide),
      h 5 (by decide), h 6 (by decide), h 7 (by decide)]
    rfl

theorem deserLawful : sm3.DeserLawful where
  canon := fun raw s h => by
    simp only [sm3, deserialize, serialize] at h ⊢
    split at h
    · rename_i hl
      injection h with h
      subst h
      have : (V8.ofFn (wordLE 32 raw)).toList = (List.range 8).map (wordLE 32 raw) := rfl
      rw [this, bytesOfWordsLE_range (by decide) _ _ (by omega), counter_canon (by decide) (by simp [hl])]
      simp
    · cases h

theorem digest_eq (m : Bytes) : sm3.digest m = Spec.Sm3.sm3 m := by
  obtain ⟨b, h1, h2, h3, h4⟩ := Core.digest_eager lawful rfl m
  rw [h4]
  simp only [sm3] at h1 h2 h3 ⊢
  simp only [finalize, updateBlocks, BlockBuffer.len64PaddingBE, length_blocks, h3, init]
  rw [show compress = Spec.Sm3.compress from funext fun s => funext (compress_eq s),
    show (64 : W64) = BitVec.ofNat 64 64 from rfl, bitLen_eq, beBytes_counter (by decide)]
  rw [Spec.Sm3.sm3, Spec.Sm3.pad, ← md_finalize (by decide) h1 (by simp) _ _ m h2]
  rfl

end Sm3
end Hashes
