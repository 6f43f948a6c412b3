import Verif.Proof.FsbShift
import Verif.Proof.Words
import Verif.Proof.Md
import Verif.Proof.Whirlpool
/- Helper lemmas: the modelled FSB never panics and equals its bit-level specification. -/
namespace Hashes.Fsb
open Spec.Fsb (bit num pack)

/-- What the five parameter sets have in common. -/
structure Good (P : Params) : Prop where
  w_pos : 0 < P.w
  r_w : P.r = 8 * P.w
  size : (P.s - P.r) / P.w = 5 ∨ (P.s - P.r) / P.w = 6
  s_bs : P.w * ((P.s - P.r) / P.w) = 8 * P.bs
  s_msg : P.s / 8 - P.r / 8 = P.bs
  s_bs' : (P.s - P.r) / 8 = P.bs
  n_w : P.n = P.w * 2 ^ (8 + (P.s - P.r) / P.w)
  n_r : P.n = P.r * (P.n / P.r)
  n_lt : P.n < 2 ^ 31
  cue : P.p % 8 ≠ 0
  r_p : P.r ≤ P.p
  bs_ge : 8 ≤ P.bs
  bs_le : P.bs ≤ 255

/-- The five parameter sets. -/
def all : List Params := [fsb160, fsb224, fsb256, fsb384, fsb512]

theorem good {P : Params} (h : P ∈ all) : Good P := by
  have : ∀ P ∈ all, 0 < P.w ∧ P.r = 8 * P.w ∧ ((P.s - P.r) / P.w = 5 ∨ (P.s - P.r) / P.w = 6) ∧ P.w * ((P.s - P.r) / P.w) = 8 * P.bs ∧
    P.s / 8 - P.r / 8 = P.bs ∧ (P.s - P.r) / 8 = P.bs ∧ P.n = P.w * 2 ^ (8 + (P.s - P.r) / P.w) ∧ P.n = P.r * (P.n / P.r) ∧ P.n < 2 ^ 31 ∧
    P.p % 8 ≠ 0 ∧ P.r ≤ P.p ∧ 8 ≤ P.bs ∧ P.bs ≤ 255 := by decide
  obtain ⟨a1, a2, a3, a4, a5, a6, a7, a8, a9, a10, a11, a12, a13⟩ := this P h
  exact ⟨a1, a2, a3, a4, a5, a6, a7, a8, a9, a10, a11, a12, a13⟩

variable {P : Params} {PI : Bytes}

theorem mapM_some {α β : Type} {f : α → Option β} {g : α → β} (l : List α) (h : ∀ x ∈ l, f x = some (g x)) : l.mapM f = some (l.map g) := by
  induction l with
  | nil => rfl
  | cons x l ih =>
    rw [List.mapM_cons, h x (by simp), ih fun y hy => h y (by simp [hy])]; rfl

theorem num_false (k : Nat) (l : List Bool) : num (List.replicate k false ++ l) = num l := by
  induction k with
  | zero => rfl
  | succ k ih => rw [List.replicate_succ, List.cons_append, ← ih]; rfl

/-- A byte whose first `sh` bits are clear. -/
theorem toNat_low (b : Byte) (sh size : Nat) (hs : sh + size = 8) (f : Nat → Bool) (h0 : ∀ t < sh, mb b t = false)
    (h1 : ∀ t < size, mb b (sh + t) = f t) : b.toNat = num ((List.range size).map f) := by
  rw [← num8, ← hs, List.range_add, List.map_append, List.map_map]
  rw [show (List.range sh).map (mb b) = List.replicate sh false by
    rw [List.eq_replicate_iff]; refine ⟨by simp, fun x hx => ?_⟩
    obtain ⟨t, ht, rfl⟩ := List.mem_map.1 hx
    exact h0 t (List.mem_range.1 ht)]
  rw [num_false]
  congr 1
  exact List.map_congr_left fun t ht => h1 t (List.mem_range.1 ht)

/-- One group of bits. -/
def group (m : Bytes) (size i : Nat) : Nat := num ((List.range size).map fun t => bit m (i * size + t))

theorem divideOne_eq (m : Bytes) (size i : Nat) (hs : size = 5 ∨ size = 6) (h : i * size + size ≤ 8 * m.length) :
    ∃ b, divideOne m size i = some b ∧ b.toNat = group m size i := by
  have hs8 : size < 8 ∧ 0 < size := by omega
  rw [divideOne, csub_eq (by omega), Option.bind_eq_bind, Option.bind_some]
  simp only
  obtain ⟨pos, hp⟩ : ∃ p, i * size = p := ⟨_, rfl⟩
  rw [hp] at h ⊢
  by_cases hsw : (pos % 8 + size - 1) / 8 = 1
  · rw [if_pos hsw]
    simp (disch := omega) only [csub_eq, idx_eq, shl_eq, shr_eq, Option.bind_eq_bind, Option.bind_some]
    refine ⟨_, rfl, toNat_low _ (8 - size) size (by omega) _ (fun t ht => ?_) (fun t ht => ?_)⟩
    · rw [mb_shr _ _ _ (by omega)]; simp; omega
    · rw [mb_shr _ _ _ (by omega), joinOr _ _ _ _ (by omega) (by omega)]
      simp only [Nat.le_add_right, decide_true, Bool.true_and]
      congr 1; rw [hp]; omega
  · rw [if_neg hsw]
    simp (disch := omega) only [csub_eq, idx_eq, shl_eq, shr_eq, Option.bind_eq_bind, Option.bind_some]
    refine ⟨_, rfl, toNat_low _ (8 - size) size (by omega) _ (fun t ht => ?_) (fun t ht => ?_)⟩
    · rw [mb_shr _ _ _ (by omega)]; simp; omega
    · rw [mb_shr _ _ _ (by omega), shlB _ _ _ (by omega)]
      simp only [Nat.le_add_right, decide_true, Bool.true_and, show 8 - size + t - (8 - size) + pos % 8 < 8 by omega]
      congr 1; rw [hp]; omega

theorem dividingBits_eq (g : Good P) (m : Bytes) (hm : m.length = P.bs) :
    ∃ d, dividingBits P m ((P.s - P.r) / P.w) = some d ∧ d.length = P.w ∧
      ∀ i < P.w, (d.getD i 0).toNat = group m ((P.s - P.r) / P.w) i := by
  obtain ⟨size, hsz⟩ : ∃ k, (P.s - P.r) / P.w = k := ⟨_, rfl⟩
  have gs := g.size; have gb := g.s_bs; have gw := g.w_pos; have gbs := g.bs_ge
  rw [hsz] at gs gb ⊢
  have hone : ∀ i < P.w - 1, i * size + size ≤ 8 * m.length := by
    intro i hi
    rw [← Nat.succ_mul, hm, ← gb]
    exact Nat.mul_le_mul_right _ (by omega)
  have hf : ∀ i ∈ List.range (P.w - 1), divideOne m size i = some ((divideOne m size i).getD 0) := by
    intro i hi
    obtain ⟨b, e, _⟩ := divideOne_eq m size i gs (hone i (List.mem_range.1 hi))
    rw [e]; rfl
  rw [dividingBits, if_neg (by omega)]
  simp only [pure_bind, Params.sizeMsg, Params.sizeInput, Params.sizeOutput, g.s_msg]
  rw [mapM_some _ hf]
  simp (disch := omega) only [csub_eq, idx_eq, shl_eq, shr_eq, Option.bind_eq_bind, Option.bind_some]
  refine ⟨_, rfl, by simp; omega, fun i hi => ?_⟩
  by_cases hl : i < P.w - 1
  · obtain ⟨b, e, h⟩ := divideOne_eq m size i gs (hone i hl)
    rw [List.getD_eq_getElem?_getD, List.getElem?_append_left (by simp [hl])]
    simp [hl, e, h]
  · rw [List.getD_eq_getElem?_getD, List.getElem?_append_right (by simp; omega)]
    simp only [List.length_map, List.length_range, show i - (P.w - 1) = 0 by omega, List.getElem?_cons_zero, Option.getD_some]
    refine toNat_low _ (8 - size) size (by omega) _ (fun t ht => ?_) (fun t ht => ?_)
    · rw [mb_shr _ _ _ (by omega)]; simp; omega
    · rw [mb_shr _ _ _ (by omega), shlB _ _ _ (by omega)]
      simp only [Nat.le_add_right, decide_true, Bool.true_and, show 8 - size + t - (8 - size) + (8 - size) < 8 by omega]
      congr 1
      have : P.w * size = (P.w - 1) * size + size := by rw [← Nat.succ_mul]; congr 1; omega
      rw [show i = P.w - 1 by omega]
      omega

theorem group_lt (m : Bytes) (size i : Nat) : group m size i < 2 ^ size := by
  have : ∀ l : List Bool, num l < 2 ^ l.length := by
    intro l
    suffices h : ∀ (l : List Bool) (a : Nat), l.foldl (fun a b => 2 * a + b.toNat) a < (a + 1) * 2 ^ l.length by
      have := h l 0; simpa [num] using this
    intro l
    induction l with
    | nil => intro a; simp
    | cons b l ih =>
      intro a
      rw [List.foldl_cons, List.length_cons, Nat.pow_succ, Nat.mul_comm _ 2, ← Nat.mul_assoc]
      refine Nat.lt_of_lt_of_le (ih _) (Nat.mul_le_mul_right _ ?_)
      cases b <;> simp [Bool.toNat] <;> omega
  have := this ((List.range size).map fun t => bit m (i * size + t))
  simpa [group] using this

/-- Parameters of the specification. -/
def toSpec (P : Params) : Spec.Fsb.Params := ⟨P.n, P.w, P.r, P.p, P.s, P.out⟩

theorem W_eq (g : Good P) (h m : Bytes) (i : Nat) :
    Spec.Fsb.W (toSpec P) h m i = i * (P.n / P.w) + (h.getD i 0).toNat + group m ((P.s - P.r) / P.w) i * 256 := by
  have e8 : P.r / P.w = 8 := by rw [g.r_w]; exact Nat.mul_div_cancel _ g.w_pos
  have : num ((List.range 8).map fun t => bit h (i * 8 + t)) = (h.getD i 0).toNat := by
    rw [← num8]
    congr 1
    exact List.map_congr_left fun t ht => by rw [bit_mb _ _ _ (List.mem_range.1 ht), Nat.mul_comm]
  simp only [Spec.Fsb.W, toSpec, Spec.Fsb.Params.a, e8, this, group]

theorem W_lt (g : Good P) (h m : Bytes) (i : Nat) (hi : i < P.w) : Spec.Fsb.W (toSpec P) h m i < P.n := by
  have h1 := group_lt m ((P.s - P.r) / P.w) i
  have h2 := (h.getD i 0).isLt
  have hd : P.n / P.w = 2 ^ (8 + (P.s - P.r) / P.w) := by
    conv => lhs; rw [g.n_w]
    exact Nat.mul_div_cancel_left _ g.w_pos
  rw [W_eq g, hd]
  have e : (2 : Nat) ^ (8 + (P.s - P.r) / P.w) = 256 * 2 ^ ((P.s - P.r) / P.w) := by rw [Nat.pow_add]
  have hn : (i + 1) * 2 ^ (8 + (P.s - P.r) / P.w) ≤ P.n := by
    rw [g.n_w]; exact Nat.mul_le_mul_right _ hi
  rw [Nat.succ_mul] at hn
  omega

theorem wIndices_eq (g : Good P) (h m : Bytes) (hh : h.length = P.r / 8) (hm : m.length = P.bs) :
    wIndices P h m = some ((List.range P.w).map (Spec.Fsb.W (toSpec P) h m)) := by
  obtain ⟨d, e, hl, hd⟩ := dividingBits_eq g m hm
  rw [wIndices, e, Option.bind_eq_bind, Option.bind_some]
  apply mapM_some
  intro i hi
  have hi : i < P.w := List.mem_range.1 hi
  have e8 : P.r / P.w = 8 := by rw [g.r_w]; exact Nat.mul_div_cancel _ g.w_pos
  have hw : P.r / 8 = P.w := by rw [g.r_w]; exact Nat.mul_div_cancel_left _ (by decide)
  have hlt := W_lt g h m i hi
  have hn := g.n_lt
  have hdv : i * P.n / P.w = i * (P.n / P.w) := Nat.mul_div_assoc _ ⟨_, g.n_w⟩
  rw [W_eq g, ← hdv] at hlt ⊢
  rw [idx_eq (by omega), idx_eq (by omega), Option.bind_eq_bind, Option.bind_some, Option.bind_eq_bind, Option.bind_some, e8, hd i hi,
    Nat.shiftLeft_eq, Nat.mod_eq_of_lt (by omega : i * P.n / P.w < 2 ^ 32), cadd32_eq (by omega), Option.bind_some, Nat.mod_eq_of_lt (by omega),
    cadd32_eq (by omega)]

theorem getD_drop' (l : Bytes) (a k : Nat) : (l.drop a).getD k 0 = l.getD (a + k) 0 := by
  simp only [List.getD_eq_getElem?_getD, List.getElem?_drop]

/-- One vector of the table, masked. -/
theorem defineIv_eq (g : Good P) (index : Nat) (hi : (index + 1) * (P.p / 8 + 1) ≤ PI.length) :
    ∃ v, defineIv P PI index = some v ∧ v.length = P.p / 8 + 1 ∧ (∀ j, P.p ≤ j → bit v j = false) ∧
      ∀ j < P.p, bit v j = bit (PI.drop (index * (P.p / 8 + 1))) j := by
  have hc := g.cue
  have hsm : (index + 1) * (P.p / 8 + 1) = index * (P.p / 8 + 1) + (P.p / 8 + 1) := Nat.succ_mul _ _
  rw [defineIv]
  simp only [Params.sizeVectors, Params.shift]
  rw [slice_eq (by omega) hi, Option.bind_eq_bind, Option.bind_some, hsm, Nat.add_sub_cancel_left]
  have hl : ((PI.drop (index * (P.p / 8 + 1))).take (P.p / 8 + 1)).length = P.p / 8 + 1 := by simp; omega
  have hg : ∀ k < P.p / 8 + 1, ((PI.drop (index * (P.p / 8 + 1))).take (P.p / 8 + 1)).getD k 0 = (PI.drop (index * (P.p / 8 + 1))).getD k 0 := by
    intro k hk
    simp only [List.getD_eq_getElem?_getD]
    rw [List.getElem?_take_of_lt hk]
  generalize (PI.drop (index * (P.p / 8 + 1))).take (P.p / 8 + 1) = v at hl hg ⊢
  simp (disch := omega) only [csub_eq, idx_eq, shl_eq, shr_eq, store_eq, Option.bind_eq_bind, Option.bind_some]
  have hlast : ∀ u < 8, mb ((v.getD (v.length - 1) 0 >>> (8 - P.p % 8)) <<< (8 - P.p % 8)) u = (decide (u < P.p % 8) && mb (v.getD (v.length - 1) 0) u) := by
    intro u hu
    rw [mb_shl _ _ _ hu]
    by_cases h : u < P.p % 8
    · rw [mb_shr _ _ _ (by omega)]
      simp [h, show u + (8 - P.p % 8) < 8 by omega, show u + (8 - P.p % 8) - (8 - P.p % 8) = u by omega]
    · simp [h, show ¬ u + (8 - P.p % 8) < 8 by omega]
  refine ⟨_, rfl, by simpa using hl, fun j hj => ?_, fun j hj => ?_⟩
  · have e := bit_mb (v.set (v.length - 1) ((v.getD (v.length - 1) 0 >>> (8 - P.p % 8)) <<< (8 - P.p % 8))) (j / 8) (j % 8) (by omega)
    rw [show 8 * (j / 8) + j % 8 = j by omega] at e
    rw [← e, getD_set _ _ _ _ (by omega)]
    by_cases h : v.length - 1 = j / 8
    · rw [if_pos h, hlast _ (by omega)]
      simp; omega
    · rw [if_neg h, List.getD_eq_getElem?_getD, List.getElem?_eq_none (by omega)]
      exact mb_zero _
  · have e := bit_mb (v.set (v.length - 1) ((v.getD (v.length - 1) 0 >>> (8 - P.p % 8)) <<< (8 - P.p % 8))) (j / 8) (j % 8) (by omega)
    have e' := bit_mb (PI.drop (index * (P.p / 8 + 1))) (j / 8) (j % 8) (by omega)
    rw [show 8 * (j / 8) + j % 8 = j by omega] at e e'
    rw [← e, ← e', getD_set _ _ _ _ (by omega)]
    by_cases h : v.length - 1 = j / 8
    · rw [if_pos h, hlast _ (by omega), h, hg _ (by omega), decide_eq_true (by omega : j % 8 < P.p % 8), Bool.true_and]
    · rw [if_neg h, hg _ (by omega)]

/-- One column. -/
theorem column_eq (g : Good P) (hPI : P.n / P.r * (P.p / 8 + 1) ≤ PI.length) (c : Nat) (hc : c < P.n) :
    ∃ t, ((defineIv P PI (c / P.r)).bind fun v => shiftAndTruncate P v (c % P.r)) = some t ∧ t.length = P.r / 8 ∧
      ∀ j < P.r, bit t j = Spec.Fsb.column (toSpec P) PI c j := by
  have hr : 8 * (P.r / 8) = P.r := by rw [g.r_w]; omega
  have hr0 : 0 < P.r := by rw [g.r_w]; have := g.w_pos; omega
  have hq : c / P.r < P.n / P.r := by
    rw [Nat.div_lt_iff_lt_mul hr0, Nat.mul_comm, ← g.n_r]; exact hc
  obtain ⟨v, e, h1, h2, h3⟩ := defineIv_eq (P := P) (PI := PI) g (c / P.r) (Nat.le_trans (Nat.mul_le_mul_right _ hq) hPI)
  have hm : c % P.r < P.r := Nat.mod_lt _ hr0
  obtain ⟨t, e', h4, h5⟩ := sat_eq (P := P) hr g.r_p g.cue h1 h2 hm
  refine ⟨t, by rw [e, Option.bind_some, e'], h4, fun j hj => ?_⟩
  have hp := g.r_p
  rw [h5 j (by omega), h3 _ (Nat.mod_lt _ (by omega))]
  rfl

theorem bit_xor (l l' : Bytes) (h : l.length = l'.length) (j : Nat) : bit (List.zipWith (· ^^^ ·) l l') j = (bit l j ^^ bit l' j) := by
  simp only [bit, List.getD_eq_getElem?_getD, List.getElem?_zipWith]
  by_cases hj : j / 8 < l.length
  · rw [List.getElem?_eq_getElem hj, List.getElem?_eq_getElem (by omega)]; simp
  · rw [List.getElem?_eq_none (by omega), List.getElem?_eq_none (by omega)]; simp

theorem fold_eq (g : Good P) (hPI : P.n / P.r * (P.p / 8 + 1) ≤ PI.length) (ws : List Nat) (hw : ∀ c ∈ ws, c < P.n) (acc : Bytes) (ha : acc.length = P.r / 8) :
    ∃ t, ws.foldlM (fun acc wi => (defineIv P PI (wi / P.r)).bind fun v => (shiftAndTruncate P v (wi % P.r)).bind fun t =>
        some (List.zipWith (· ^^^ ·) acc t)) acc = some t ∧ t.length = P.r / 8 ∧
      ∀ j < P.r, bit t j = ws.foldl (fun b c => b ^^ Spec.Fsb.column (toSpec P) PI c j) (bit acc j) := by
  induction ws generalizing acc with
  | nil => exact ⟨acc, rfl, ha, fun _ _ => rfl⟩
  | cons c ws ih =>
    obtain ⟨t, e, h1, h2⟩ := column_eq g hPI c (hw c (by simp))
    obtain ⟨t', e', h1', h2'⟩ := ih (fun c hc => hw c (by simp [hc])) (List.zipWith (· ^^^ ·) acc t) (by simp [ha, h1])
    refine ⟨t', ?_, h1', fun j hj => ?_⟩
    · rw [List.foldlM_cons, ← Option.bind_assoc, e]
      exact e'
    · rw [h2' j hj, bit_xor _ _ (by omega), h2 j hj]; rfl

/-- The compression function never panics and is the specified one. -/
theorem compress_eq (g : Good P) (hPI : P.n / P.r * (P.p / 8 + 1) ≤ PI.length) (h m : Bytes) (hh : h.length = P.r / 8) (hm : m.length = P.bs) :
    compress P PI h m = some (Spec.Fsb.compress (toSpec P) PI h m) := by
  rw [compress, wIndices_eq g h m hh hm, Option.bind_eq_bind, Option.bind_some]
  obtain ⟨t, e, h1, h2⟩ := fold_eq g hPI ((List.range P.w).map (Spec.Fsb.W (toSpec P) h m))
    (fun c hc => by obtain ⟨i, hi, rfl⟩ := List.mem_map.1 hc; exact W_lt g h m i (List.mem_range.1 hi)) (List.replicate (P.r / 8) 0) (by simp)
  refine Eq.trans e ?_
  congr 1
  apply bits_ext h1 (by simp [Spec.Fsb.compress]; rfl)
  have hr : 8 * (P.r / 8) = P.r := by rw [g.r_w]; omega
  intro j hj
  rw [h2 j (by omega), Spec.Fsb.compress, bit_pack _ _ _ (show j < 8 * ((toSpec P).r / 8) from hj), List.foldl_map]
  congr 1
  rw [bit, getD_zeros]; simp

theorem length_compress (h m : Bytes) : (Spec.Fsb.compress (toSpec P) PI h m).length = P.r / 8 := by
  rw [Spec.Fsb.compress, length_pack]; rfl

theorem foldl_eq (g : Good P) (hPI : P.n / P.r * (P.p / 8 + 1) ≤ PI.length) (l : List Bytes) (hl : ∀ b ∈ l, b.length = P.bs) (h : Bytes) (hh : h.length = P.r / 8) :
    l.foldl (compressOpt P PI) (some h) = some (l.foldl (Spec.Fsb.compress (toSpec P) PI) h) ∧
      (l.foldl (Spec.Fsb.compress (toSpec P) PI) h).length = P.r / 8 := by
  induction l generalizing h with
  | nil => exact ⟨rfl, hh⟩
  | cons b l ih =>
    rw [List.foldl_cons, List.foldl_cons, show compressOpt P PI (some h) b = compress P PI h b from rfl,
      compress_eq g hPI h b hh (hl b (by simp))]
    exact ih (fun b hb => hl b (by simp [hb])) _ (length_compress _ _)

/-- No panic so far. -/
def Ok (P : Params) (s : State) : Prop := ∃ h, s.state = some h ∧ h.length = P.r / 8

theorem lawful (g : Good P) (hPI : P.n / P.r * (P.p / 8 + 1) ≤ PI.length) : (core P PI).Lawful (Ok P) where
  bs_pos := by have := g.bs_ge; simp only [core]; omega
  nil := fun s => by simp [core, updateBlocks]
  app := fun s x y => by simp [core, updateBlocks, BitVec.ofNat_add, BitVec.add_assoc]
  inv_init := ⟨_, rfl, by simp⟩
  inv_update := fun s x hx ⟨h, e, hl⟩ => by
    obtain ⟨e1, e2⟩ := foldl_eq g hPI x hx h hl
    refine ⟨_, ?_, e2⟩
    rw [← e1, ← e]; rfl
  reset_eq := fun _ _ => rfl
  fin_congr := fun s b b' h h' hc => by
    have := g.bs_ge
    simp only [core] at h h' ⊢
    simp only [finalize, BlockBuffer.len64PaddingBE]
    rw [pos_congr h h' hc, digestPad_congr (bs := P.bs) h h' hc (by simp; omega)]

theorem serLawful (g : Good P) : (core P PI).SerLawful (Ok P) where
  bs_le := g.bs_le
  len := fun s ⟨h, e, hl⟩ => by simp [core, serialize, e, hl]
  round := fun s ⟨h, e, hl⟩ => by
    obtain ⟨n, st⟩ := s
    simp only at e
    subst e
    simp only [core, serialize, deserialize, Option.getD_some]
    rw [if_pos (by simp [hl]), List.drop_left' hl, List.take_left' hl, counter_round (by decide)]

theorem deserLawful : (core P PI).DeserLawful where
  canon := fun raw s h => by
    simp only [core, deserialize, serialize] at h ⊢
    split at h
    · rename_i hl
      injection h with h
      subst h
      simp only [Option.getD_some]
      rw [counter_canon (by decide) (by simp [hl]), List.take_append_drop]
    · cases h

theorem digest_eq (g : Good P) (hPI : P.n / P.r * (P.p / 8 + 1) ≤ PI.length) (m : Bytes) :
    (core P PI).digest m = some (Spec.Fsb.hash (toSpec P) PI m) := by
  obtain ⟨b, h1, h2, h3, h4⟩ := Core.digest_eager (lawful g hPI) rfl m
  have gb := g.bs_ge
  rw [h4]
  simp only [core] at h1 h2 h3 ⊢
  simp only [finalize, updateBlocks, BlockBuffer.len64PaddingBE, length_blocks, h3, init]
  rw [bitLen_eq, beBytes_counter (by decide), Spec.Fsb.hash]
  have e : b.digestPad P.bs 0x80 (beBytes 8 (8 * m.length)) (compressOpt P PI)
      ((blocks P.bs (m.length / P.bs) m).foldl (compressOpt P PI) (some (List.replicate (P.r / 8) 0))) =
      (chunks P.bs (Spec.mdPad P.bs 0x80 (beBytes 8 (8 * m.length)) m)).foldl (compressOpt P PI) (some (List.replicate (P.r / 8) 0)) :=
    md_finalize (by omega) h1 (by simp; omega) _ _ m h2
  rw [e, (foldl_eq g hPI _ (fun b hb => length_of_mem_chunks hb) _ (by simp)).1]
  simp only [toSpec, g.s_bs', Option.map_some]
  rw [show ∀ h, Whirlpool.whirlpool.finish (Whirlpool.whirlpool.update Whirlpool.whirlpool.new h) = Spec.Whirlpool.whirlpool h from Whirlpool.digest_eq]

end Hashes.Fsb
