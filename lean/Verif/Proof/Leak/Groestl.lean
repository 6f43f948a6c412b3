import Verif.Leak.Groestl
import Verif.Proof.Leak.Recover
import Verif.Proof.Checked.Groestl
/- Groestl: forgetting the observations; they determine the block. -/
namespace Hashes.Groestl
open Leak

theorem columnL_val (x : List W64) (c : List Nat) : (columnL x c).val = columnC x c := by
  simp only [columnL, columnC, val_loop, val_bind, val_usub, val_idx, val_shr, val_pure]; rfl
theorem rndqL_val (g : Cfg) (x : List W64) (r : W64) : (rndqL g x r).val = rndqC g x r := by
  simp only [rndqL, rndqC, val_loop, val_bind, val_upd, val_idx, val_shl, val_mapM, columnL_val]
theorem rndpL_val (g : Cfg) (x : List W64) (r : W64) : (rndpL g x r).val = rndpC g x r := by
  simp only [rndpL, rndpC, val_loop, val_bind, val_upd, val_idx, val_shl, val_mapM, columnL_val]
theorem compressL_val (g : Cfg) (h : List W64) (b : Bytes) : (compressL g h b).val = compressC g h b := by
  simp only [compressL, compressC, val_bind, val_load, val_fromBe, val_loop, val_upd, val_idx, val_shl, rndqL_val, rndpL_val]

theorem columnL_num (x x' : List W64) (c : List Nat) : Num Any (columnL x c) (columnL x' c) := by unfold columnL; num
theorem rndqL_num (g : Cfg) (x x' : List W64) (r : W64) : Num Any (rndqL g x r) (rndqL g x' r) := by
  unfold rndqL
  refine Num.bind (R := Any) (Num.loop trivial ?_) fun _ _ _ => Num.mapM (columnL_num _ _) _
  num
theorem rndpL_num (g : Cfg) (x x' : List W64) (r r' : W64) : Num Any (rndpL g x r) (rndpL g x' r') := by
  unfold rndpL
  refine Num.bind (R := Any) (Num.loop trivial ?_) fun _ _ _ => Num.mapM (columnL_num _ _) _
  num

variable {n : Nat}

/-- Byte `i` (from the top) of word `a` is the same in both. -/
def SameByte (s s' : Arr 64 n) (a i : Nat) : Prop := (s.get a >>> (8 * (7 - i))) &&& 0xff = (s'.get a >>> (8 * (7 - i))) &&& 0xff

/-- The body of the loop of `column`. -/
def lookL (x : List W64) (c : List Nat) (t : W64) (i : Nat) : Leak W64 := do
  let sl := 8 * (← usub 7 i)
  let k := ((← shr (← idx x (← idx c i)) sl) &&& 0xFF).toNat
  pure (t ^^^ (← idx (← idx TABLE i) k))

theorem lookL_num (x x' : List W64) (c : List Nat) (t t' : W64) (i : Nat) : Num Any (lookL x c t i) (lookL x' c t' i) := by unfold lookL; num

theorem lookL_tells (x x' : Arr 64 n) {c : List Nat} (hc : c.length = 8) (hk : ∀ k ∈ c, k < n) (t t' : W64) {i : Nat} (hi : i < 8) :
    Tells (fun _ _ => SameByte x x' (c.getD i 0) i) (lookL x.toList c t i) (lookL x'.toList c t' i) := by
  unfold lookL
  refine Tells.skip Num.emit fun s s' _ _ hs => Tells.idx fun a a' _ ha ha' => Tells.idx fun u u' _ hu hu' => Tells.skip Num.emit fun v v' _ _ hv => ?_
  cases Option.some.inj (hs.1.symm.trans (Rs.usub_le (by omega)))
  cases Option.some.inj (hs.2.symm.trans (Rs.usub_le (by omega)))
  have ea : Rs.idx c i = some (c.getD i 0) := Rs.idx_lt 0 (by omega)
  cases Option.some.inj (ha.symm.trans ea)
  cases Option.some.inj (ha'.symm.trans ea)
  have lt := hk _ (Rs.getD_mem 0 (show i < c.length by omega))
  have e : u = x.get (c.getD i 0) := Option.some.inj (hu.symm.trans (Rs.idx_arr x lt))
  have e' : u' = x'.get (c.getD i 0) := Option.some.inj (hu'.symm.trans (Rs.idx_arr x' lt))
  have ex := Option.some.inj (hv.1.symm.trans (Rs.shr_lt (by omega)))
  have ex' := Option.some.inj (hv.2.symm.trans (Rs.shr_lt (by omega)))
  rw [ex, ex', e, e']
  exact Tells.idx fun _ _ _ _ _ => Tells.idx fun _ _ e _ _ => Tells.const (BitVec.eq_of_toNat_eq e)

theorem columnL_tells (x x' : Arr 64 n) {c : List Nat} (hc : c.length = 8) (hk : ∀ k ∈ c, k < n) :
    Tells (fun _ _ => ∀ i, i < 8 → SameByte x x' (c.getD i 0) i) (columnL x.toList c) (columnL x'.toList c) := by
  refine Tells.fold_range (f := lookL x.toList c) (g := lookL x'.toList c) (R := Any)
    (Q := fun k _ _ => ∀ i, i < k → SameByte x x' (c.getD i 0) i) trivial (by simp) (fun _ _ _ _ => lookL_num _ _ _ _ _ _) ?_
  intro s s' j hj hr a b ha hb ho k hk'
  by_cases e : k = j
  · subst e; exact lookL_tells x x' hc hk s s' hj a b ha hb ho
  · exact hr k (by omega)

/-- Every byte of the state goes into some column. -/
def Cfg.Covers (g : Cfg) : Prop := ∀ a, a < g.cols → ∀ i, i < 8 → ∃ c ∈ g.idxQ, c.getD i 0 = a

theorem covers_short : short.Covers := by unfold Cfg.Covers; decide
theorem covers_long : long.Covers := by unfold Cfg.Covers; decide

theorem byte_ext {x y : W64} (h : ∀ j, j < 8 → (x >>> (8 * (7 - j))) &&& 0xff = (y >>> (8 * (7 - j))) &&& 0xff) : x = y :=
  bytes_ext fun j hj => by
    have := h (7 - j) (by omega)
    rwa [show 7 - (7 - j) = j by omega] at this

variable {g : Cfg}

theorem rndqL_tells (G : g.Indices) (C : g.Covers) (x x' : Arr 64 g.cols) (r : W64) :
    Tells (fun _ _ => x = x') (rndqL g x.toList r) (rndqL g x'.toList r) := by
  unfold rndqL
  have e (x : Arr 64 g.cols) : (Rs.loop g.cols x.toList fun x i => do
      Rs.upd x i ((← Rs.idx x i) ^^^ (((0xFFFFFFFFFFFFFFFF : W64) - (← Rs.shl (BitVec.ofNat 64 i) 4)) ^^^ r))) =
      some (Arr.ofFn g.cols fun i => x.get i ^^^ (((0xFFFFFFFFFFFFFFFF : W64) - (BitVec.ofNat 64 i <<< 4)) ^^^ r)).toList :=
    Rs.modify_arr (fun i v => v ^^^ (((0xFFFFFFFFFFFFFFFF : W64) - (BitVec.ofNat 64 i <<< 4)) ^^^ r)) fun i l hi hl e =>
      Rs.bind_ok e <| Rs.bind_ok (Rs.shl_lt (by decide)) (Rs.upd_lt (by omega))
  refine Tells.skip (R := Any) (Num.loop trivial (by num)) fun y y' hy hy' _ => ?_
  simp only [val_loop, val_bind, val_idx, val_upd, val_shl] at hy hy'
  cases Option.some.inj ((e x).symm.trans hy)
  cases Option.some.inj ((e x').symm.trans hy')
  refine fun a b ha hb ho => ?_
  have key := Tells.mapM (columnL_num _ _) (fun c hc => columnL_tells _ _ (G.2.2 c (List.mem_append_left _ hc)).1
    (G.2.2 c (List.mem_append_left _ hc)).2) a b ha hb ho
  refine Arr.ext_get fun k hk => ?_
  have := byte_ext fun i hi => show SameByte (Arr.ofFn g.cols _) (Arr.ofFn g.cols _) k i by
    obtain ⟨c, hc, e⟩ := C k hk i hi
    exact e ▸ key c hc i hi
  rw [Arr.get_ofFn _ hk, Arr.get_ofFn _ hk] at this
  exact (BitVec.xor_left_inj _).mp this

/-- The observations of `compress` determine the block. -/
theorem compressL_tells {γ : Type} {k k' : List W64 → Leak γ} (G : g.Indices) (C : g.Covers) (hr : 0 < g.rounds) (h : List W64) {b b' : Bytes} (hb : b.length = 8 * g.cols) (hb' : b'.length = 8 * g.cols) :
    Tells (fun _ _ => b = b') (compressL g h b >>= k) (compressL g h b' >>= k') := by
  unfold compressL
  simp only [bind_assoc]
  refine Tells.skip (Num.of_rel (Rel.load rfl (hb.trans hb'.symm) fun _ _ h => Rel.fromBe h)) fun q q' hq hq' _ => ?_
  have e0 {b : Bytes} (hb : b.length = 8 * g.cols) :
      Rs.load (List.replicate g.cols (0 : W64)) b 8 (Rs.fromBe 64) = some (Arr.ofFn g.cols (wordBE 64 b)).toList :=
    Rs.load_be (w := 64) (by decide) (by simp) hb
  rw [val_load] at hq hq'
  cases Option.some.inj ((e0 hb).symm.trans hq)
  cases Option.some.inj ((e0 hb').symm.trans hq')
  refine Tells.skip (R := Any) (Num.loop trivial (by num)) fun _ _ _ _ _ => ?_
  refine Tells.bind (R := Any) (Num.loop trivial fun _ _ _ _ => rndqL_num _ _ _ _)
    (Tells.loop_first hr (rndqL_num _ _ _ _) (rndqL_tells G C _ _ _)) fun _ _ _ _ _ h => Tells.const ?_
  refine wordsBE_inj (n := g.cols) (w := 64) (by decide) (by omega) (by omega) fun i hi => ?_
  have := congrArg (fun a => Arr.get a i) h
  simp only [Arr.get_ofFn _ hi] at this
  exact this

end Hashes.Groestl
