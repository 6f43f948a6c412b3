import Verif.Checked.Kupyna
import Verif.Proof.Rust
import Verif.Proof.Words
/- No check of Checked/Kupyna.lean fails. -/
namespace Hashes.Kupyna
open Rs

variable {n : Nat}

theorem at2_build (f : Nat → Nat → Byte) {a b : Nat} (ha : a < n) (hb : b < 8) : at2 (build n f) a b = some (f a b) := by
  refine bind_ok (idx_lt [] (by simpa [build] using ha)) ?_
  rw [build, getD_map_range [] _ ha, idx_lt 0 (by simpa using hb), getD_map_range 0 _ hb]

theorem at'_build (f : Nat → Nat → Byte) {a b : Nat} (ha : a < n) (hb : b < 8) : at' (build n f) a b = f a b := by
  rw [at', build, getD_map_range [] _ ha, getD_map_range 0 _ hb]

theorem build_congr {f f' : Nat → Nat → Byte} (h : ∀ a < n, ∀ b < 8, f a b = f' a b) : build n f = build n f' :=
  List.map_congr_left fun a ha => List.map_congr_left fun b hb => h a (by simpa using ha) b (by simpa using hb)

theorem build_zero : List.replicate n (List.replicate 8 (0 : Byte)) = build n fun _ _ => 0 := by
  rw [build, List.map_const', List.length_range]; rfl

theorem set_map {α : Type} (f : Nat → α) (a : Nat) (v : α) :
    ((List.range n).map f).set a v = (List.range n).map fun i => if i = a then v else f i := by
  apply List.ext_getElem (by simp)
  intro i h1 h2
  simp only [List.getElem_set, List.getElem_map, List.getElem_range]
  by_cases h : a = i
  · rw [if_pos h, if_pos h.symm]
  · rw [if_neg h, if_neg (Ne.symm h)]

theorem upd2_build (f : Nat → Nat → Byte) {a b : Nat} (ha : a < n) (hb : b < 8) (v : Byte) :
    upd2 (build n f) a b v = some (build n fun i j => if i = a ∧ j = b then v else f i j) := by
  refine bind_ok (idx_lt [] (by simpa [build] using ha)) <| bind_ok (upd_lt ?_) ?_
  · rw [build, getD_map_range [] _ ha]; simpa using hb
  · rw [upd_lt (by simpa [build] using ha)]
    congr 1
    rw [build, getD_map_range [] _ ha, set_map, set_map]
    refine List.map_congr_left fun i _ => ?_
    by_cases h : i = a
    · subst h; simp
    · simp [h]

theorem loop_build {k : Nat} {body : Matrix → Nat → Option Matrix} (F : Nat → Nat → Nat → Byte)
    (h : ∀ i < k, body (build n (F i)) i = some (build n (F (i + 1)))) : loop k (build n (F 0)) body = some (build n (F k)) := by
  induction k with
  | zero => rfl
  | succ k ih => rw [loop_succ, ih fun i hi => h i (by omega), Option.bind_some, h k (by omega)]

/-- `for i in 0..n { for j in 0..8 { m[i][j] = v(i, j) } }` -/
theorem fill_build {body : Nat → Matrix → Nat → Option Matrix} (f v : Nat → Nat → Byte)
    (h : ∀ i j m, i < n → j < 8 → body i m j = upd2 m i j (v i j)) :
    (loop n (build n f) fun m i => loop 8 m (body i)) = some (build n v) := by
  have e := loop_build (n := n) (k := n) (body := fun m i => loop 8 m (body i)) (fun i a b => if a < i then v a b else f a b)
    fun i hi => by
      have e' := loop_build (n := n) (k := 8) (body := body i)
        (fun j a b => if a = i ∧ b < j then v a b else if a < i then v a b else f a b) fun j hj => by
          rw [h i j _ hi hj, upd2_build _ hi hj]
          congr 1
          refine build_congr fun a _ b _ => ?_
          by_cases h1 : a = i
          · subst h1
            by_cases h2 : b = j
            · subst h2; simp
            · by_cases h3 : b < j
              · simp [h2, h3, show b < j + 1 by omega]
              · simp [h2, h3, show ¬ b < j + 1 by omega]
          · simp [h1]
      rw [show build n (fun a b => if a < i then v a b else f a b) =
          build n (fun a b => if a = i ∧ b < 0 then v a b else if a < i then v a b else f a b) from
        build_congr fun a _ b _ => by simp]
      rw [e']
      congr 1
      refine build_congr fun a _ b hb => ?_
      by_cases h1 : a = i
      · subst h1; simp [hb]
      · by_cases h2 : a < i
        · simp [h1, h2, show a < i + 1 by omega]
        · simp [h1, h2, show ¬ a < i + 1 by omega]
  rw [show build n f = build n (fun a b => if a < 0 then v a b else f a b) from build_congr fun a _ b _ => by simp]
  rw [e]
  congr 1
  exact build_congr fun a ha b _ => by simp [ha]

theorem repeat_succ {α : Type} (f : α → α) (k : Nat) (x : α) : Nat.repeat f (k + 1) x = f (Nat.repeat f k x) := rfl

theorem multiplyGfC_eq (x y : Byte) : multiplyGfC x y = some (multiplyGf x y) := by
  have key (k : Nat) : (loop k (x, y, (0 : Byte)) fun s _ => do
      let r := if s.2.1 &&& 1 = 1 then s.2.2 ^^^ s.1 else s.2.2
      let hbit ← shr (s.1 &&& 0x80) 7
      let x ← shl s.1 1
      let x := if hbit = 1 then x ^^^ 0x1d else x
      let y ← shr s.2.1 1
      pure (x, y, r)) = some (Nat.repeat gfStep k (x, y, 0)) := by
    induction k with
    | zero => rfl
    | succ k ih =>
      rw [loop_succ, ih, Option.bind_some, repeat_succ]
      exact bind_ok (shr_lt (by decide)) <| bind_ok (shl_lt (by decide)) <| bind_ok (shr_lt (by decide)) rfl
  exact bind_ok (key 8) rfl

theorem at2_MDS {r b : Nat} (hr : r < 8) (hb : b < 8) : at2 MDS_MATRIX r b = some (MDS r b) := at2_build (n := 8) MDS hr hb

theorem mixColumnsC_eq (f : Nat → Nat → Byte) : mixColumnsC n (build n f) = some (mixColumns n (build n f)) := by
  rw [mixColumnsC, build_zero, mixColumns]
  refine fill_build _ _ fun i j m hi hj => bind_ok (loop_fold' (fun product b =>
    product ^^^ multiplyGf (at' (build n f) i b) (MDS j b)) fun b t hb => ?_) rfl
  rw [at'_build f hi hb]
  exact bind_ok (at2_build f hi hb) <| bind_ok (at2_MDS hj hb) <| bind_ok (multiplyGfC_eq _ _) rfl

theorem length_SBOXES : SBOXES.length = 4 ∧ ∀ t ∈ SBOXES, t.length = 256 := by
  refine ⟨rfl, ?_⟩
  have : SBOXES.all (fun t => t.length == 256) = true := by decide +kernel
  intro t ht
  simpa using List.all_eq_true.mp this t ht

/-- The matrix before iteration `i` of the outer loop of `apply_s_box`. -/
def sboxCell (f : Nat → Nat → Byte) (i a b : Nat) : Byte := if b < i then (SBOXES.getD (b % 4) []).getD (f a b).toNat 0 else f a b

theorem sboxStepC_eq (f : Nat → Nat → Byte) {i : Nat} (hi : i < 8) :
    ((build n (sboxCell f i)).mapM fun row => do upd row i (← idx (← idx SBOXES (i % 4)) (← idx row i).toNat)) =
      some (build n (sboxCell f (i + 1))) := by
  rw [mapM_some (fun row : Bytes => row.set i ((SBOXES.getD (i % 4) []).getD (row.getD i 0).toNat 0)) fun row hr => ?_]
  · congr 1
    rw [build, List.map_map, build]
    refine List.map_congr_left fun a _ => ?_
    show List.set _ _ _ = _
    rw [getD_map_range 0 _ hi, set_map]
    refine List.map_congr_left fun b _ => ?_
    unfold sboxCell
    by_cases h : b = i
    · subst h; simp
    · by_cases h' : b < i
      · simp [h, h', show b < i + 1 by omega]
      · simp [h, h', show ¬ b < i + 1 by omega]
  · have hl : row.length = 8 := by
      rw [build, List.mem_map] at hr
      obtain ⟨a, -, rfl⟩ := hr
      simp
    have h4 : i % 4 < SBOXES.length := by rw [length_SBOXES.1]; omega
    exact bind_ok (idx_lt [] h4) <| bind_ok (idx_lt 0 (by omega)) <| bind_ok (idx_lt 0 (by
      rw [length_SBOXES.2 _ (getD_mem [] h4)]; exact BitVec.isLt _)) (upd_lt (by omega))

theorem applySBoxC_eq (f : Nat → Nat → Byte) : applySBoxC (build n f) = some (applySBox n (build n f)) := by
  have e := loop_build (n := n) (k := 8) (body := fun state i => state.mapM fun row => do
      upd row i (← idx (← idx SBOXES (i % 4)) (← idx row i).toNat)) (sboxCell f) fun i hi => sboxStepC_eq f hi
  rw [show build n f = build n (sboxCell f 0) from build_congr fun a _ b _ => by simp [sboxCell]]
  rw [applySBoxC, e]
  congr 1
  exact build_congr fun a ha b hb => by rw [at'_build _ ha hb]; simp [sboxCell, hb]

theorem row_build (f : Nat → Nat → Byte) {j : Nat} (hj : j < n) : idx (build n f) j = some ((List.range 8).map (f j)) := by
  rw [idx_lt [] (by simpa [build] using hj), build, getD_map_range [] _ hj]

theorem upd_build (f : Nat → Nat → Byte) {j : Nat} (hj : j < n) (v : Nat → Byte) :
    upd (build n f) j ((List.range 8).map v) = some (build n fun a b => if a = j then v b else f a b) := by
  rw [upd_lt (by simpa [build] using hj), build, set_map, build]
  congr 1
  refine List.map_congr_left fun a _ => ?_
  by_cases h : a = j <;> simp [h]

theorem addConstantXorC_eq (f : Nat → Nat → Byte) (round : Nat) :
    addConstantXorC n (build n f) round = some (addConstantXor n (build n f) round) := by
  have e := loop_build (n := n) (k := n) (body := fun state j => do
      let row ← idx state j
      let constant : Byte := BitVec.ofNat 8 ((j * 0x10) ^^^ round)
      upd state j (← upd row 0 ((← idx row 0) ^^^ constant)))
    (fun i a b => if a < i ∧ b = 0 then f a b ^^^ BitVec.ofNat 8 ((a * 0x10) ^^^ round) else f a b) fun j hj => by
      refine bind_ok (row_build _ hj) <| bind_ok (idx_lt 0 (by simp)) <| bind_ok (upd_lt (by simp)) ?_
      rw [getD_map_range 0 _ (by decide), set_map, upd_build _ hj]
      congr 1
      refine build_congr fun a _ b _ => ?_
      by_cases h : a = j
      · subst h
        by_cases h' : b = 0
        · subst h'; simp
        · simp [h']
      · by_cases h' : a < j
        · simp [h, h', show a < j + 1 by omega]
        · simp [h, h', show ¬ a < j + 1 by omega]
  rw [show build n f = build n (fun a b => if a < 0 ∧ b = 0 then f a b ^^^ BitVec.ofNat 8 ((a * 0x10) ^^^ round) else f a b) from
    build_congr fun a _ b _ => by simp]
  rw [addConstantXorC, e]
  congr 1
  refine build_congr fun a ha b hb => ?_
  rw [at'_build _ ha hb]
  by_cases h : b = 0 <;> simp [h, ha]

/-- The matrix of `add_constant_plus`, cell by cell. -/
def plusCell (n : Nat) (f : Nat → Nat → Byte) (round j b : Nat) : Byte :=
  (leBytes 8 ((BitVec.ofNat 64 (ofLE ((List.range 8).map (f j))) : W64) +
    ((0x00F0F0F0F0F0F0F3 : W64) ^^^ (BitVec.ofNat 64 (((n - j - 1) * 0x10) ^^^ round) <<< 56))).toNat).getD b 0

theorem range8_getD {l : Bytes} (h : l.length = 8) : (List.range 8).map (fun b => l.getD b 0) = l := by
  have := map_getD 0 l
  rwa [h] at this

theorem addConstantPlus_build (f : Nat → Nat → Byte) (round : Nat) :
    addConstantPlus n (build n f) round = build n (plusCell n f round) := by
  rw [addConstantPlus]
  refine List.map_congr_left fun j hj => ?_
  rw [show (List.range 8).map (fun b => plusCell n f round j b) = _ from range8_getD (by simp)]
  rw [build, getD_map_range [] _ (by simpa using hj)]

theorem addConstantPlusC_eq (f : Nat → Nat → Byte) (round : Nat) :
    addConstantPlusC n (build n f) round = some (addConstantPlus n (build n f) round) := by
  rw [addConstantPlus_build]
  have e := loop_build (n := n) (k := n) (body := fun state j => do
      let row ← idx state j
      let r ← fromLe 64 row
      let k := ((← usub (← usub n j) 1) * 0x10) ^^^ round
      let r := r + ((0x00F0F0F0F0F0F0F3 : W64) ^^^ (← shl (BitVec.ofNat 64 k) 56))
      upd state j (← copy row 0 8 (leBytes 8 r.toNat)))
    (fun i a b => if a < i then plusCell n f round a b else f a b) fun j hj => by
      have e0 : (List.range 8).map (fun b => if j < j then plusCell n f round j b else f j b) = (List.range 8).map (f j) := by simp
      refine bind_ok (row_build _ hj) ?_
      rw [e0]
      refine bind_ok (if_pos (by simp)) <| bind_ok (usub_le (by omega)) <| bind_ok (usub_le (by omega)) <|
        bind_ok (shl_lt (by decide)) ?_
      refine bind_ok (v := (List.range 8).map (plusCell n f round j)) ?_ ?_
      · rw [copy_le (by decide) (by simp) (by simp), show (List.range 8).map (plusCell n f round j) = _ from range8_getD (by simp)]
        simp
      · rw [upd_build _ hj]
        congr 1
        refine build_congr fun a _ b _ => ?_
        by_cases h : a = j
        · subst h; simp
        · by_cases h' : a < j
          · simp [h, h', show a < j + 1 by omega]
          · simp [h, h', show ¬ a < j + 1 by omega]
  rw [show build n f = build n (fun a b => if a < 0 then plusCell n f round a b else f a b) from build_congr fun a _ b _ => by simp]
  rw [addConstantPlusC, e]
  congr 1
  exact build_congr fun a ha b hb => by simp [ha]

theorem blockToMatrixC_eq {block : Bytes} (h : block.length = 8 * n) : blockToMatrixC n block = some (blockToMatrix n block) := by
  rw [blockToMatrixC, build_zero, blockToMatrix]
  exact fill_build _ _ fun i j m hi hj => bind_ok (idx_lt 0 (by omega)) rfl

theorem flatten_build (n : Nat) (f : Nat → Nat → Byte) : (List.range (n * 8)).map (fun k => f (k / 8) (k % 8)) = (build n f).flatten := by
  induction n with
  | zero => rfl
  | succ n ih =>
    have e : build (n + 1) f = build n f ++ [(List.range 8).map fun b => f n b] := by
      unfold build; rw [List.range_succ (n := n), List.map_append]; rfl
    rw [Nat.succ_mul, List.range_add, List.map_append, ih, e, List.flatten_append, List.flatten_singleton, List.map_map]
    congr 1
    refine List.map_congr_left fun j hj => ?_
    have hj : j < 8 := by simpa using hj
    show f ((n * 8 + j) / 8) ((n * 8 + j) % 8) = _
    rw [show (n * 8 + j) / 8 = n by omega, show (n * 8 + j) % 8 = j by omega]

theorem matrixToBlockC_eq (f : Nat → Nat → Byte) : matrixToBlockC n (build n f) = some (matrixToBlock (build n f)) := by
  have e : matrixToBlockC n (build n f) =
      loop n (List.replicate (n * 8) (0 : Byte)) fun block i => loop 8 block fun block j =>
        (fun (b : Bytes) (k : Nat) => do upd b k (← at2 (build n f) (k / 8) (k % 8))) block (i * 8 + j) :=
    loop_congr fun i t hi => loop_congr fun j t hj => by
      show _ = (do upd t (i * 8 + j) (← at2 (build n f) ((i * 8 + j) / 8) ((i * 8 + j) % 8)))
      rw [show (i * 8 + j) / 8 = i by omega, show (i * 8 + j) % 8 = j by omega]
  rw [matrixToBlock, ← flatten_build]
  refine (e.trans (loop_nest n 8 _ fun b k => do upd b k (← at2 (build n f) (k / 8) (k % 8)))).trans ?_
  exact loop_fill _ (by simp) fun k l hk hl => bind_ok (at2_build f (by omega) (by omega)) (upd_lt (by omega))

variable {g : Cfg}

theorem addShift_nat {col s : Nat} (h : col + s < 2 ^ 64) : addShift col (s : Int) = some (col + s) := by
  have e : ((s : Int) % 2 ^ 64).toNat = s := by omega
  rw [addShift, e, if_pos h]

/-- The shift of pass `i`. -/
def shiftOf (g : Cfg) (i : Nat) : Nat := if i = 8 - 1 then g.lastShift else i

theorem nextShift_eq {i : Nat} (hi : i < 8) {s : Int} (hs : s = (i : Int) - 1) : nextShift g i s = some (shiftOf g i : Int) := by
  refine bind_ok (usub_le (by decide)) ?_
  rw [shiftOf]
  by_cases h : i = 8 - 1
  · rw [if_pos h, if_pos h]; rfl
  · rw [if_neg h, if_neg h, incI32, if_pos (by omega)]; congr 1; omega

theorem rotateC_eq (hc : g.cols < 2 ^ 32) (hL : g.lastShift < 2 ^ 32) (f : Nat → Nat → Byte) {temp : Bytes}
    (ht : temp.length = g.cols) {i : Nat} (hi : i < 8) {s : Int} (hs : s = (i : Int) - 1) :
    ∃ t', t' = (List.range g.cols).foldl (fun t col => t.set ((col + shiftOf g i) % g.cols) (at' (build g.cols f) col i)) temp ∧
      t'.length = g.cols ∧
      rotateC g (build g.cols f, temp, s) i =
        some (build g.cols fun col r => if r = i then t'.getD col 0 else at' (build g.cols f) col r, t', (shiftOf g i : Int)) := by
  have hsh : shiftOf g i < 2 ^ 32 := by unfold shiftOf; split <;> omega
  obtain ⟨e1, l1⟩ := loop_inv (n := g.cols) (s := temp) (f := fun temp col => do
      upd temp ((← addShift col (shiftOf g i : Int)) % g.cols) (← at2 (build g.cols f) col i))
    (fun t col => t.set ((col + shiftOf g i) % g.cols) (at' (build g.cols f) col i)) (fun _ t => t.length = g.cols) ht
    fun col t hcol hl => ⟨by
      rw [at'_build f hcol hi]
      exact bind_ok (addShift_nat (by omega)) <| bind_ok (at2_build f hcol hi) (upd_lt (by
        rw [hl]; exact Nat.mod_lt _ (by omega))), by simpa using hl⟩
  refine ⟨_, rfl, l1, ?_⟩
  generalize List.foldl _ _ _ = t' at *
  have e2 := loop_build (n := g.cols) (k := g.cols) (body := fun state col => do upd2 state col i (← idx t' col))
    (fun k a b => if a < k ∧ b = i then t'.getD a 0 else f a b) fun col hcol => by
      refine bind_ok (idx_lt 0 (by omega)) ?_
      rw [upd2_build _ hcol hi]
      congr 1
      refine build_congr fun a _ b _ => ?_
      by_cases h : a = col
      · subst h
        by_cases h' : b = i
        · subst h'; simp
        · simp [h']
      · by_cases h' : a < col
        · simp [h, h', show a < col + 1 by omega]
        · simp [h, h', show ¬ a < col + 1 by omega]
  rw [show build g.cols (fun a b => if a < 0 ∧ b = i then t'.getD a 0 else f a b) = build g.cols f from
    build_congr fun a _ b _ => by simp] at e2
  rw [show build g.cols (fun a b => if a < g.cols ∧ b = i then t'.getD a 0 else f a b) =
      build g.cols (fun col r => if r = i then t'.getD col 0 else at' (build g.cols f) col r) from
    build_congr fun a ha b hb => by rw [at'_build f ha hb]; simp [ha]] at e2
  exact bind_ok (nextShift_eq hi hs) <| bind_ok e1 <| bind_ok e2 rfl

theorem rotate_passes (hc : g.cols < 2 ^ 32) (hL : g.lastShift < 2 ^ 32) (f : Nat → Nat → Byte) (k : Nat) (hk : k ≤ 8) :
    ∃ f' temp s, loop k (build g.cols f, List.replicate g.cols (0 : Byte), -1) (rotateC g) = some (build g.cols f', temp, s) ∧
      (List.range k).foldl (fun (st : Matrix × Bytes) i =>
        let shift := if i = 8 - 1 then g.lastShift else i
        let temp := (List.range g.cols).foldl (fun t col => t.set ((col + shift) % g.cols) (at' st.1 col i)) st.2
        (build g.cols fun col r => if r = i then temp.getD col 0 else at' st.1 col r, temp))
        (build g.cols f, List.replicate g.cols 0) = (build g.cols f', temp) ∧
      temp.length = g.cols ∧ (k < 8 → s = (k : Int) - 1) := by
  induction k with
  | zero => exact ⟨f, _, -1, rfl, rfl, by simp, fun _ => rfl⟩
  | succ k ih =>
    obtain ⟨f', temp, s, e1, e2, hl, hs⟩ := ih (by omega)
    obtain ⟨t', h1, h2, h3⟩ := rotateC_eq hc hL f' hl (show k < 8 by omega) (hs (by omega))
    refine ⟨fun col r => if r = k then t'.getD col 0 else at' (build g.cols f') col r, t', shiftOf g k, ?_, ?_, h2, fun h => ?_⟩
    · rw [loop_succ, e1, Option.bind_some, h3]
    · rw [List.range_succ, List.foldl_append, e2, h1]; rfl
    · rw [shiftOf, if_neg (by omega)]; omega

theorem rotateRowsC_eq (hc : g.cols < 2 ^ 32) (hL : g.lastShift < 2 ^ 32) (f : Nat → Nat → Byte) :
    ∃ f', rotateRows g (build g.cols f) = build g.cols f' ∧ rotateRowsC g (build g.cols f) = some (rotateRows g (build g.cols f)) := by
  obtain ⟨f', temp, s, e1, e2, -, -⟩ := rotate_passes hc hL f 8 (by decide)
  have e : rotateRows g (build g.cols f) = build g.cols f' := by rw [rotateRows, e2]
  exact ⟨f', e, by rw [e]; exact bind_ok e1 rfl⟩

/-- One round, for either way of adding the constants. -/
theorem roundC_eq (hc : g.cols < 2 ^ 32) (hL : g.lastShift < 2 ^ 32) {A : Option Matrix} {h : Nat → Nat → Byte} (hA : A = some (build g.cols h)) :
    ∃ f', mixColumns g.cols (rotateRows g (applySBox g.cols (build g.cols h))) = build g.cols f' ∧
      (do let state ← A
          let state ← applySBoxC state
          let state ← rotateRowsC g state
          mixColumnsC g.cols state) = some (mixColumns g.cols (rotateRows g (applySBox g.cols (build g.cols h)))) := by
  refine ⟨_, rfl, bind_ok hA <| bind_ok (applySBoxC_eq h) ?_⟩
  obtain ⟨f2, e2, e2'⟩ := rotateRowsC_eq hc hL (fun j i => (SBOXES.getD (i % 4) []).getD (at' (build g.cols h) j i).toNat 0)
  rw [← applySBox] at e2 e2'
  refine bind_ok e2' ?_
  rw [e2]
  exact mixColumnsC_eq f2

theorem tPlusC_eq (hc : g.cols < 2 ^ 32) (hL : g.lastShift < 2 ^ 32) {block : Bytes} (hb : block.length = 8 * g.cols) :
    tPlusC g block = some (tPlus g block) := by
  have key (k : Nat) : ∃ f, (List.range k).foldl (fun state nu =>
      mixColumns g.cols (rotateRows g (applySBox g.cols (addConstantPlus g.cols state nu)))) (blockToMatrix g.cols block) =
      build g.cols f ∧ (loop k (blockToMatrix g.cols block) fun state nu => do
        let state ← addConstantPlusC g.cols state nu
        let state ← applySBoxC state
        let state ← rotateRowsC g state
        mixColumnsC g.cols state) = some (build g.cols f) := by
    induction k with
    | zero => exact ⟨_, rfl, rfl⟩
    | succ k ih =>
      obtain ⟨f, e1, e2⟩ := ih
      obtain ⟨f', h1, h2⟩ := roundC_eq hc hL ((addConstantPlusC_eq f k).trans (congrArg some (addConstantPlus_build f k)))
      refine ⟨f', ?_, ?_⟩
      · rw [List.range_succ, List.foldl_append, e1, ← h1, ← addConstantPlus_build]; rfl
      · rw [loop_succ, e2, Option.bind_some, ← h1]; exact h2
  obtain ⟨f, e1, e2⟩ := key g.rounds
  refine bind_ok (blockToMatrixC_eq hb) <| bind_ok e2 ?_
  rw [tPlus, e1]
  exact matrixToBlockC_eq f

theorem tXorC_eq (hc : g.cols < 2 ^ 32) (hL : g.lastShift < 2 ^ 32) {block : Bytes} (hb : block.length = 8 * g.cols) :
    tXorC g block = some (tXor g block) := by
  have key (k : Nat) : ∃ f, (List.range k).foldl (fun state nu =>
      mixColumns g.cols (rotateRows g (applySBox g.cols (addConstantXor g.cols state nu)))) (blockToMatrix g.cols block) =
      build g.cols f ∧ (loop k (blockToMatrix g.cols block) fun state nu => do
        let state ← addConstantXorC g.cols state nu
        let state ← applySBoxC state
        let state ← rotateRowsC g state
        mixColumnsC g.cols state) = some (build g.cols f) := by
    induction k with
    | zero => exact ⟨_, rfl, rfl⟩
    | succ k ih =>
      obtain ⟨f, e1, e2⟩ := ih
      obtain ⟨f', h1, h2⟩ := roundC_eq hc hL (addConstantXorC_eq f k)
      refine ⟨f', ?_, ?_⟩
      · rw [List.range_succ, List.foldl_append, e1, ← h1]; rfl
      · rw [loop_succ, e2, Option.bind_some, ← h1]; exact h2
  obtain ⟨f, e1, e2⟩ := key g.rounds
  refine bind_ok (blockToMatrixC_eq hb) <| bind_ok e2 ?_
  rw [tXor, e1]
  exact matrixToBlockC_eq f

theorem xorBytesC_eq {a b : Bytes} (ha : a.length = n) (hb : b.length = n) : xorBytesC n a b = some (xorBytes a b) := by
  have e : xorBytesC n a b = some ((List.range n).map fun i => a.getD i 0 ^^^ b.getD i 0) :=
    loop_fill (fun i => a.getD i 0 ^^^ b.getD i 0) (by simp) fun i l hi hl =>
      bind_ok (idx_lt 0 (by omega)) <| bind_ok (idx_lt 0 (by omega)) (upd_lt (by omega))
  rw [e]
  congr 1
  refine ext_getD 0 (by simp [xorBytes, ha, hb]) fun i hi => ?_
  have hi : i < n := by simpa using hi
  rw [getD_map_range 0 _ hi, xorBytes, getD_zipWith 0 _ (by omega) (by omega)]

theorem length_t (F : Matrix → Nat → Matrix) (k : Nat) (block : Bytes) :
    (matrixToBlock ((List.range k).foldl (fun state nu => mixColumns n (F state nu)) (blockToMatrix n block))).length = n * 8 := by
  have : ∃ f, (List.range k).foldl (fun state nu => mixColumns n (F state nu)) (blockToMatrix n block) = build n f := by
    cases k with
    | zero => exact ⟨_, rfl⟩
    | succ k => rw [List.range_succ, List.foldl_append]; exact ⟨_, rfl⟩
  obtain ⟨f, e⟩ := this
  rw [e, matrixToBlock, ← flatten_build]; simp

theorem storeC_eq (s : Arr 64 n) : (store (List.replicate (8 * n) (0 : Byte)) s.toList 8 fun v => beBytes 8 v.toNat) =
    some (bytesOfWordsBE s.toList) := store_eq (n := n) (by decide) s.2 (by simp) fun x => by simp

theorem compressC_eq (hc : g.cols < 2 ^ 32) (hL : g.lastShift < 2 ^ 32) (prev : Arr 64 g.cols) {block : Bytes} (hb : block.length = 8 * g.cols) :
    compressC g prev.toList block = some (compress g prev block).toList := by
  have hp : (bytesOfWordsBE prev.toList).length = 8 * g.cols := by rw [length_bytesOfWordsBE, show prev.toList.length = g.cols from prev.2, Nat.mul_comm]
  have lx : ∀ {a b : Bytes}, a.length = 8 * g.cols → b.length = 8 * g.cols → (xorBytes a b).length = 8 * g.cols := by
    intro a b ha hb; simp [xorBytes, ha, hb]
  have h1 : ∀ b, (tXor g b).length = 8 * g.cols := fun b => by rw [Nat.mul_comm]; exact length_t _ _ _
  have h2 : ∀ b, (tPlus g b).length = 8 * g.cols := fun b => by rw [Nat.mul_comm]; exact length_t _ _ _
  exact bind_ok (storeC_eq prev) <| bind_ok (xorBytesC_eq hb hp) <| bind_ok (tXorC_eq hc hL (lx hb hp)) <| bind_ok (tPlusC_eq hc hL hb) <|
    bind_ok (xorBytesC_eq (h1 _) (h2 _)) <| bind_ok (xorBytesC_eq (lx (h1 _) (h2 _)) hp) <|
    load_be (w := 64) (by decide) prev.2 (lx (lx (h1 _) (h2 _)) hp)

theorem lengthC_eq (blocksLen : W64) {bs pos : Nat} (hbs : bs ≤ 128) (hpos : pos < bs) :
    lengthC blocksLen bs pos = some ((leBytes 16 (8 * (BitVec.ofNat 128 blocksLen.toNat * BitVec.ofNat 128 bs + BitVec.ofNat 128 pos) : W128).toNat).take 12) := by
  have h := blocksLen.isLt
  have e1 : (BitVec.ofNat 128 blocksLen.toNat).toNat = blocksLen.toNat := by rw [BitVec.toNat_ofNat]; omega
  have e2 : (BitVec.ofNat 128 bs).toNat = bs := by rw [BitVec.toNat_ofNat]; omega
  have e3 : (BitVec.ofNat 128 pos).toNat = pos := by rw [BitVec.toNat_ofNat]; omega
  have hm : blocksLen.toNat * bs ≤ 2 ^ 64 * 128 := Nat.mul_le_mul (by omega) hbs
  have e4 : (BitVec.ofNat 128 blocksLen.toNat * BitVec.ofNat 128 bs).toNat = blocksLen.toNat * bs := by
    rw [BitVec.toNat_mul, e1, e2]; exact Nat.mod_eq_of_lt (by omega)
  have e5 : (BitVec.ofNat 128 blocksLen.toNat * BitVec.ofNat 128 bs + BitVec.ofNat 128 pos).toNat = blocksLen.toNat * bs + pos := by
    rw [BitVec.toNat_add, e4, e3]; exact Nat.mod_eq_of_lt (by omega)
  refine bind_ok (if_pos (by rw [e1, e2]; omega)) <| bind_ok (if_pos (by rw [e4, e3]; omega)) <| bind_ok (if_pos (by
    rw [e5, show (8 : W128).toNat = 8 from rfl]; omega)) ?_
  rw [slice_le (by decide) (by simp)]; rfl

theorem outputC_eq (hc : g.cols < 2 ^ 32) (hL : g.lastShift < 2 ^ 32) (state : Arr 64 g.cols) {out : Bytes}
    (ho : out.length = 8 * (g.cols - g.cols / 2)) :
    outputC g state.toList out = some (bytesOfWordsBE ((Arr.ofFn g.cols (wordBE 64 (xorBytes (bytesOfWordsBE state.toList)
      (tXor g (bytesOfWordsBE state.toList))))).toList.drop (g.cols / 2))) := by
  have hp : (bytesOfWordsBE state.toList).length = 8 * g.cols := by rw [length_bytesOfWordsBE, show state.toList.length = g.cols from state.2, Nat.mul_comm]
  have h1 : ∀ b, (tXor g b).length = 8 * g.cols := fun b => by rw [Nat.mul_comm]; exact length_t _ _ _
  refine bind_ok (storeC_eq state) <| bind_ok (tXorC_eq hc hL hp) <| bind_ok (xorBytesC_eq hp (h1 _)) <|
    bind_ok (load_be (w := 64) (n := g.cols) (by decide) (by simp) (by simp [xorBytes, hp, h1])) ?_
  refine bind_ok (slice_le (by simp; omega) (Nat.le_refl _)) ?_
  rw [show ((List.range g.cols).map (wordBE 64 (xorBytes (bytesOfWordsBE state.toList) (tXor g (bytesOfWordsBE state.toList))))) =
    (Arr.ofFn g.cols (wordBE 64 (xorBytes (bytesOfWordsBE state.toList) (tXor g (bytesOfWordsBE state.toList))))).toList from rfl]
  generalize Arr.ofFn g.cols _ = a
  rw [List.take_of_length_le (by simp)]
  exact store_eq (n := g.cols - g.cols / 2) (by decide) (by rw [List.length_drop, show a.toList.length = g.cols from a.2]) ho fun x => by simp

end Hashes.Kupyna
