import Verif.Checked.Groestl
import Verif.Proof.Rust
/- No check of Checked/Groestl.lean fails. -/
namespace Hashes.Groestl
open Rs

theorem length_TABLE : TABLE.length = 8 ∧ ∀ t ∈ TABLE, t.length = 256 := by
  refine ⟨rfl, ?_⟩
  have : TABLE.all (fun t => t.length == 256) = true := by decide +kernel
  intro t ht
  simpa using List.all_eq_true.mp this t ht

/-- The index lists have one entry per column, each naming eight existing columns. -/
def Cfg.Indices (g : Cfg) : Prop :=
  g.idxQ.length = g.cols ∧ g.idxP.length = g.cols ∧ ∀ c ∈ g.idxQ ++ g.idxP, c.length = 8 ∧ ∀ k ∈ c, k < g.cols

theorem indices_short : short.Indices := by unfold Cfg.Indices; decide
theorem indices_long : long.Indices := by unfold Cfg.Indices; decide

variable {n : Nat}

theorem columnC_eq (x : Arr 64 n) {c : List Nat} (hc : c.length = 8) (hk : ∀ k ∈ c, k < n) : columnC x.toList c = some (column x c) :=
  loop_fold' (fun t i => t ^^^ (TABLE.getD i []).getD ((x.get (c.getD i 0) >>> (8 * (7 - i))) &&& 0xFF).toNat 0) fun i t hi =>
    bind_ok (usub_le (by omega)) <| bind_ok (idx_lt 0 (by omega)) <| bind_ok (idx_arr x (hk _ (getD_mem 0 (by omega)))) <|
    bind_ok (shr_lt (by omega)) <| bind_ok (idx_lt [] (by rw [length_TABLE.1]; exact hi)) <| bind_ok (idx_lt 0 (by
      rw [length_TABLE.2 _ (getD_mem [] (by rw [length_TABLE.1]; exact hi))]
      exact and_ff _)) rfl

theorem columns_eq (x : Arr 64 n) {l : List (List Nat)} (hl : l.length = n) (h : ∀ c ∈ l, c.length = 8 ∧ ∀ k ∈ c, k < n) :
    l.mapM (columnC x.toList) = some (Arr.ofFn n fun j => column x (l.getD j [])).toList := by
  rw [mapM_some (column x) fun c hc => columnC_eq x (h c hc).1 (h c hc).2]
  have e := congrArg (List.map (column x)) (map_getD [] l)
  rw [hl, List.map_map] at e
  rw [← e]; rfl

variable {g : Cfg}

theorem rndqC_eq (G : g.Indices) (x : Arr 64 g.cols) (r : W64) : rndqC g x.toList r = some (rndq g x r).toList :=
  bind_ok (modify_arr (fun i v => v ^^^ (((0xFFFFFFFFFFFFFFFF : W64) - (BitVec.ofNat 64 i <<< 4)) ^^^ r)) fun i l hi hl e =>
    bind_ok e <| bind_ok (shl_lt (by decide)) (upd_lt (by omega))) <|
  columns_eq _ G.1 fun c hc => G.2.2 c (List.mem_append_left _ hc)

theorem rndpC_eq (G : g.Indices) (x : Arr 64 g.cols) (r : W64) : rndpC g x.toList r = some (rndp g x r).toList :=
  bind_ok (modify_arr (fun i v => v ^^^ ((BitVec.ofNat 64 i <<< 60) ^^^ r)) fun i l hi hl e =>
    bind_ok e <| bind_ok (shl_lt (by decide)) (upd_lt (by omega))) <|
  columns_eq _ G.2.1 fun c hc => G.2.2 c (List.mem_append_right _ hc)

theorem roundsQ (G : g.Indices) (k : Nat) (x : Arr 64 g.cols) :
    (loop k x.toList fun q i => rndqC g q (BitVec.ofNat 64 i)) =
      some ((List.range k).foldl (fun q i => rndq g q (BitVec.ofNat 64 i)) x).toList := by
  induction k with
  | zero => rfl
  | succ k ih => rw [loop_succ, ih, Option.bind_some, rndqC_eq G, List.range_succ, List.foldl_append]; rfl

theorem roundsP (G : g.Indices) (k : Nat) (x : Arr 64 g.cols) :
    (loop k x.toList fun p i => do rndpC g p (← shl (BitVec.ofNat 64 i) 56)) =
      some ((List.range k).foldl (fun p i => rndp g p (BitVec.ofNat 64 i <<< 56)) x).toList := by
  induction k with
  | zero => rfl
  | succ k ih =>
    rw [loop_succ, ih, Option.bind_some, List.range_succ, List.foldl_append]
    exact bind_ok (shl_lt (by decide)) (rndpC_eq G _ _)

theorem compressC_eq (G : g.Indices) (h : Arr 64 g.cols) {block : Bytes} (hb : block.length = 8 * g.cols) :
    compressC g h.toList block = some (compress g h block).toList := by
  have e0 : load (List.replicate g.cols (0 : W64)) block 8 (fromBe 64) = some (Arr.ofFn g.cols (wordBE 64 block)).toList :=
    load_be (w := 64) (by decide) (by simp) hb
  rw [compress]
  generalize Arr.ofFn g.cols (wordBE 64 block) = q at *
  have e1 : (loop g.cols (List.replicate g.cols (0 : W64)) fun p i => do upd p i ((← idx h.toList i) ^^^ (← idx q.toList i))) =
      some (Arr.ofFn g.cols fun i => h.get i ^^^ q.get i).toList :=
    fill_arr _ (by simp) fun i l hi hl => bind_ok (idx_arr _ hi) <| bind_ok (idx_arr _ hi) (upd_lt (by omega))
  refine bind_ok e0 <| bind_ok e1 <| bind_ok (roundsQ G _ q) <| bind_ok (roundsP G _ _) ?_
  rw [← permQ, ← permP]
  exact modify_arr (fun i v => v ^^^ ((permQ g q).get i ^^^ (permP g (Arr.ofFn g.cols fun i => h.get i ^^^ q.get i)).get i))
    fun i l hi hl e => bind_ok e <| bind_ok (idx_arr _ hi) <| bind_ok (idx_arr _ hi) (upd_lt (by omega))

theorem pFinalC_eq (G : g.Indices) (h : Arr 64 g.cols) : pFinalC g h.toList = some (pFinal g h).toList := by
  refine bind_ok (roundsP G _ h) ?_
  rw [← permP]
  exact modify_arr (fun i v => v ^^^ h.get i) fun i l hi hl e => bind_ok e <| bind_ok (idx_arr _ hi) (upd_lt (by omega))

end Hashes.Groestl
