import Verif.Checked.Riscv
import Verif.Proof.Rust
import Verif.Proof.Sha2Riscv
/- The checked transcription of the RISC-V backends: no check fails, and the result is that of Model/Sha2Riscv.lean. -/
namespace Hashes.Sha2Riscv
open Riscv Rs

theorem raw_add_in {r : Raw.Region} {p n : Nat} (h : r.lo ≤ p) (h' : p + n ≤ r.hi) : Raw.add r p n = some (p + n) := if_pos (.inr ⟨h, h'⟩)

theorem loadAlignedChk_eq {w n : Nat} (fin : BitVec w → BitVec w) (m : Mem) {r : Raw.Region} {p : Nat} (ha : p % (w / 8) = 0)
    (hlo : r.lo ≤ p) (hhi : p + w / 8 * n ≤ r.hi) : loadAlignedChk n fin m r p = some (loadAligned n fin m p).toList := by
  refine bind_ok (check_of ha) (fill_arr (fun i => fin (read w m (p + w / 8 * i))) (List.length_replicate ..) fun i l hi hl => ?_)
  have h1 : w / 8 * (i + 1) ≤ w / 8 * n := Nat.mul_le_mul_left _ hi
  rw [Nat.mul_succ] at h1
  refine bind_ok (raw_add_in hlo (by omega)) (bind_ok (check_of ⟨?_, by omega, by omega⟩) (upd_lt (by omega)))
  rw [Nat.add_mul_mod_self_left]
  exact ha

theorem loadUnalignedChk_eq {w n xlen : Nat} (hw : 0 < w / 8) (hn : 0 < n) (strict : Bool) (fin : BitVec w → BitVec w) (m : Mem)
    {r : Raw.Region} {p : Nat} (ha : p % (w / 8) ≠ 0) (hlo : r.lo ≤ p) (hhi : p + w / 8 * n ≤ r.hi)
    (hs : strict = true → r.lo ≤ p - p % (w / 8)) :
    loadUnalignedChk strict xlen n fin m r p = some (loadUnaligned xlen n fin m p).toList := by
  have hk : p % (w / 8) < w / 8 := Nat.mod_lt _ hw
  have hp : p % (w / 8) ≤ p := Nat.mod_le _ _
  have hw0 : 0 < w := Nat.pos_of_ne_zero fun e => by rw [e] at hw; exact absurd hw (by decide)
  have ho : 8 * (p % (w / 8)) % w < w := Nat.mod_lt _ hw0
  have ho2 : (w - 8 * (p % (w / 8)) % w) % w < w := Nat.mod_lt _ hw0
  have hbp : (p - p % (w / 8)) % (w / 8) = 0 := by
    have := Nat.div_add_mod p (w / 8)
    rw [show p - p % (w / 8) = w / 8 * (p / (w / 8)) by omega, Nat.mul_mod_right]
  have hn1 : w / 8 * (n - 1 + 1) = w / 8 * n := by rw [Nat.sub_add_cancel hn]
  rw [Nat.mul_succ] at hn1
  have step : ∀ i (y : BitVec w × Arr w n), i < n - 1 →
      (do
        let q ← bpAdd strict r (p - p % (w / 8)) (w / 8 * (1 + i))
        Raw.deref r (w / 8) q (w / 8)
        let right := read w m q
        let hi ← shl right ((w - 8 * (p % (w / 8)) % w) % w)
        let res ← upd y.2.toList i (fin (y.1 ||| hi))
        let left ← shr right (8 * (p % (w / 8)) % w)
        pure (left, res)) = some
          (read w m (p - p % (w / 8) + w / 8 * (1 + i)) >>> (8 * (p % (w / 8)) % w),
           (y.2.set i (fin (y.1 ||| read w m (p - p % (w / 8) + w / 8 * (1 + i)) <<< ((w - 8 * (p % (w / 8)) % w) % w)))).toList) := by
    intro i y hi
    have h1 : w / 8 * (i + 1 + 1) ≤ w / 8 * n := Nat.mul_le_mul_left _ (by omega)
    rw [Nat.mul_succ, Nat.mul_succ] at h1
    have h2 : w / 8 * (1 + i) = w / 8 + w / 8 * i := by rw [Nat.mul_add, Nat.mul_one]
    refine bind_ok (v := p - p % (w / 8) + w / 8 * (1 + i)) ?_ ?_
    · unfold bpAdd
      split
      · rename_i e
        exact raw_add_in (hs e) (by omega)
      · rfl
    · refine bind_ok (check_of ⟨?_, by omega, by omega⟩) (bind_ok (shl_lt ho2) (bind_ok (upd_arr _ _ (by omega)) (bind_ok (shr_lt ho) rfl)))
      rw [Nat.add_mul_mod_self_left]
      exact hbp
  refine bind_ok (check_of ha) (bind_ok (usub_le (Nat.le_of_lt ho)) (bind_ok (check_of ⟨hbp, by omega, by omega⟩) (bind_ok (usub_le hn) ?_)))
  refine bind_ok (v := (fun y : BitVec w × Arr w n => (y.1, y.2.toList)) ((List.range (n - 1)).foldl (fun (x : BitVec w × Arr w n) i =>
    let right := read w m (p - p % (w / 8) + w / 8 * (1 + i))
    (right >>> (8 * (p % (w / 8)) % w), x.2.set i (fin (x.1 ||| right <<< ((w - 8 * (p % (w / 8)) % w) % w)))))
    (loadSrl xlen w m (p - p % (w / 8)) (8 * (p % (w / 8)) % w), Arr.ofFn n fun _ => 0))) ?_ ?_
  · have e0 : List.replicate n (0 : BitVec w) = (Arr.ofFn n fun _ => (0 : BitVec w)).toList := by
      simp [Arr.ofFn, Arr.toList, List.map_const']
    have hstep := fun i y hi => step i y hi
    generalize hN : n - 1 = N at *
    clear hn1 hN
    rw [e0]
    induction N with
    | zero => rfl
    | succ N ih =>
      rw [loop_succ, ih (fun i y hi => step i y (by omega)) (fun i y hi => step i y (by omega)), List.range_succ, List.foldl_append]
      exact step N _ (by omega)
  · refine bind_ok (check_of ⟨?_, by omega, by omega⟩) ?_
    · rw [Nat.add_mul_mod_self_left]; exact hbp
    · exact upd_arr _ _ (by omega)

/-- With the rule for `add`, and a word boundary before the block that is outside the object: undefined. -/
theorem loadUnalignedChk_none {w n xlen : Nat} (hw : 0 < w / 8) (hn : 1 < n) (fin : BitVec w → BitVec w) (m : Mem)
    {r : Raw.Region} {p : Nat} (ha : p % (w / 8) ≠ 0) (hlo : p - p % (w / 8) < r.lo) :
    loadUnalignedChk true xlen n fin m r p = none := by
  have hk : p % (w / 8) < w / 8 := Nat.mod_lt _ hw
  have hp : p % (w / 8) ≤ p := Nat.mod_le _ _
  have hw0 : 0 < w := Nat.pos_of_ne_zero fun e => by rw [e] at hw; exact absurd hw (by decide)
  have ho : 8 * (p % (w / 8)) % w < w := Nat.mod_lt _ hw0
  have hbp : (p - p % (w / 8)) % (w / 8) = 0 := by
    have := Nat.div_add_mod p (w / 8)
    rw [show p - p % (w / 8) = w / 8 * (p / (w / 8)) by omega, Nat.mul_mod_right]
  have hn1 : w / 8 * (n - 1 + 1) = w / 8 * n := by rw [Nat.sub_add_cancel (by omega)]
  rw [Nat.mul_succ] at hn1
  refine bind_ok (check_of ha) (bind_ok (usub_le (Nat.le_of_lt ho)) (bind_ok (check_of ⟨hbp, by omega, by omega⟩) (bind_ok (usub_le (by omega)) ?_)))
  have add0 : bpAdd true r (p - p % (w / 8)) (w / 8 * (1 + 0)) = none := by
    simp only [bpAdd, if_true]
    refine if_neg fun h => ?_
    rw [Nat.mul_one] at h
    omega
  obtain ⟨N, hN⟩ : ∃ N, n - 1 = 1 + N := ⟨n - 2, by omega⟩
  rw [hN, loop_add, loop_succ, loop_zero, Option.bind_some, add0]
  rfl

/-- `load_block` at any address: `r` is any object that contains the block. -/
theorem loadChk_eq {w n xlen : Nat} (hw : 0 < w / 8) (hn : 0 < n) (strict : Bool) (fin : BitVec w → BitVec w) (m : Mem)
    {r : Raw.Region} {p : Nat} (hlo : r.lo ≤ p) (hhi : p + w / 8 * n ≤ r.hi) (hs : strict = true → r.lo ≤ p - p % (w / 8)) :
    loadChk strict xlen n fin m r p =
      some (if p % (w / 8) = 0 then loadAligned n fin m p else loadUnaligned xlen n fin m p).toList := by
  unfold loadChk
  split
  · exact loadAlignedChk_eq fin m ‹_› hlo hhi
  · exact loadUnalignedChk_eq hw hn strict fin m ‹_› hlo hhi hs

theorem joinChk_eq (b : Arr 32 32) : joinChk b.toList = some (join b).toList :=
  fill_arr _ (List.length_replicate ..) fun i l hi hl =>
    bind_ok (idx_arr b (by omega)) (bind_ok (idx_arr b (by omega)) (upd_lt (by omega)))

theorem loadBlock32Chk_eq {strict : Bool} {xlen : Nat} (m : Mem) {r : Raw.Region} {p : Nat} (hlo : r.lo ≤ p) (hhi : p + 64 ≤ r.hi)
    (hs : strict = true → r.lo ≤ p - p % 4) : loadBlock32Chk strict xlen m r p = some (loadBlock32 xlen m p).toList :=
  loadChk_eq (w := 32) (by decide) (by decide) strict toBe m hlo hhi hs

theorem loadBlock64Chk_eq {strict : Bool} (m : Mem) {r : Raw.Region} {p : Nat} (hlo : r.lo ≤ p) (hhi : p + 128 ≤ r.hi)
    (hs : strict = true → r.lo ≤ p - p % 8) : loadBlock64Chk strict m r p = some (loadBlock64 m p).toList :=
  loadChk_eq (w := 64) (by decide) (by decide) strict toBe m hlo hhi hs

theorem loadBlock64Chk'_eq {strict : Bool} (m : Mem) {r : Raw.Region} {p : Nat} (hlo : r.lo ≤ p) (hhi : p + 128 ≤ r.hi)
    (hs : strict = true → r.lo ≤ p - p % 4) : loadBlock64Chk' strict m r p = some (loadBlock64' m p).toList :=
  bind_ok (loadChk_eq (w := 32) (n := 32) (by decide) (by decide) strict id m hlo hhi hs) (joinChk_eq _)

/-! ### Rounds -/

theorem opaqueLoad_eq {w : Nat} (o : Ops w) {k : List (BitVec w)} {R : Nat} (h : R < k.length) : opaqueLoad o k R = some (o.load k R) := by
  have h1 : w / 8 * (R + 1) ≤ w / 8 * k.length := Nat.mul_le_mul_left _ h
  rw [Nat.mul_succ] at h1
  exact bind_ok (check_of h) (bind_ok (check_of ⟨Nat.mod_one _, Nat.zero_le _, h1⟩) rfl)

theorem roundChk_eq {w : Nat} (o : Ops w) (s : Arr w 8) {r : Nat} (hr : r ≤ o.K.length) {k m : BitVec w} :
    roundChk o s.toList r (some k) (some m) = some (round o s (o.K.length - r) k m).toList := by
  have h8 : ∀ n, n % 8 < 8 := fun n => Nat.mod_lt _ (by decide)
  exact bind_ok (usub_le hr) <| bind_ok (idx_arr _ (h8 _)) <| bind_ok (idx_arr _ (h8 _)) <| bind_ok (idx_arr _ (h8 _)) <|
    bind_ok (idx_arr _ (h8 _)) <| bind_ok rfl <| bind_ok rfl <| bind_ok (upd_arr _ _ (h8 _)) <| bind_ok (idx_arr _ (h8 _)) <|
    bind_ok (idx_arr _ (h8 _)) <| bind_ok (upd_arr _ _ (h8 _)) <| bind_ok (idx_arr _ (h8 _)) <| bind_ok (idx_arr _ (h8 _)) <|
    bind_ok (idx_arr _ (h8 _)) <| bind_ok (idx_arr _ (h8 _)) <| upd_arr _ _ (h8 _)

theorem scheduleChk_eq {w : Nat} (o : Ops w) (b : Arr w 16) (r : Nat) : scheduleChk o b.toList r = some (scheduleC o b r).toList := by
  have h8 : ∀ n, n % 16 < 16 := fun n => Nat.mod_lt _ (by decide)
  exact bind_ok (idx_arr _ (h8 _)) <| bind_ok (idx_arr _ (h8 _)) <| bind_ok (idx_arr _ (h8 _)) <| bind_ok (idx_arr _ (h8 _)) <| upd_arr _ _ (h8 _)

theorem roundUChk_eq {w : Nat} (o : Ops w) {k : List (BitVec w)} (b : Arr w 16) (s : Arr w 8) {R : Nat} (hR : R < 16) (hk : R < k.length)
    (hK : R ≤ o.K.length) : roundUChk o k b.toList s.toList R = some (roundU o k b s R).toList := by
  rw [roundUChk, opaqueLoad_eq o hk, idx_arr b hR]
  exact roundChk_eq o s hK

theorem addStateChk_eq {w : Nat} (a s : Arr w 8) : addStateChk a.toList s.toList = some (addState a s).toList :=
  modify_arr (fun i x => x + s.get i) fun i l hi hl e => bind_ok e (bind_ok (idx_arr s hi) (upd_lt (by omega)))

/-- A loop over states that are the lists of two arrays. -/
theorem loop_arr2 {w a b n : Nat} {f : List (BitVec w) × List (BitVec w) → Nat → Option (List (BitVec w) × List (BitVec w))}
    (g : Arr w a × Arr w b → Nat → Arr w a × Arr w b)
    (h : ∀ i y, i < n → f (y.1.toList, y.2.toList) i = some ((g y i).1.toList, (g y i).2.toList)) (y : Arr w a × Arr w b) :
    loop n (y.1.toList, y.2.toList) f = some ((((List.range n).foldl g y).1).toList, (((List.range n).foldl g y).2).toList) := by
  induction n with
  | zero => rfl
  | succ n ih =>
    rw [loop_succ, ih fun i y hi => h i y (by omega), List.range_succ, List.foldl_append]
    exact h n _ (by omega)

theorem loop_arr {w a n : Nat} {f : List (BitVec w) → Nat → Option (List (BitVec w))} (g : Arr w a → Nat → Arr w a)
    (h : ∀ i y, i < n → f y.toList i = some (g y i).toList) (y : Arr w a) :
    loop n y.toList f = some ((List.range n).foldl g y).toList := by
  induction n with
  | zero => rfl
  | succ n ih =>
    rw [loop_succ, ih fun i y hi => h i y (by omega), List.range_succ, List.foldl_append]
    exact h n _ (by omega)

theorem slice_from {α : Type} {a : List α} {i : Nat} (h : i ≤ a.length) : slice a i a.length = some (a.drop i) := by
  rw [slice_le h (Nat.le_refl _), List.take_of_length_le (by simp)]

theorem compressBlockUChk_eq {w : Nat} (o : Ops w) (hK : o.K.length = 16 * (o.groups + 1)) (s : Arr w 8) (b : Arr w 16) :
    compressBlockUChk o s.toList b.toList = some (compressBlockU o s b).toList := by
  refine bind_ok (loop_arr2 (fun x i => (List.range 16).foldl (roundScheduleU o (o.K.drop (16 * i))) x) (fun i y hi => ?_) (s, b)) ?_
  · refine bind_ok (slice_from (by omega)) (loop_arr2 (roundScheduleU o (o.K.drop (16 * i))) (fun R z hR => ?_) y)
    refine bind_ok (roundUChk_eq o z.2 z.1 hR (by rw [List.length_drop]; omega) (by omega)) (bind_ok (scheduleChk_eq o z.2 R) ?_)
    rw [scheduleC, Nat.mod_eq_of_lt hR]
    rfl
  · refine bind_ok (slice_from (by omega)) ?_
    refine bind_ok (loop_arr (roundU o (o.K.drop (16 * o.groups)) _) (fun R z hR => ?_) _) (addStateChk_eq _ _)
    exact roundUChk_eq o _ z hR (by rw [List.length_drop]; omega) (by omega)

theorem compressBlockCChk_eq {w : Nat} (o : Ops w) (hK : o.K.length = 16 * (o.groups + 1)) (s : Arr w 8) (b : Arr w 16) :
    compressBlockCChk o s.toList b.toList = some (compressBlockC o s b).toList := by
  refine bind_ok (loop_arr2 (fun x r => (roundC o x.1 x.2 r, if r < 16 * o.groups then scheduleC o x.2 r else x.2)) (fun r y hr => ?_) (s, b))
    (addStateChk_eq _ _)
  refine bind_ok (v := (roundC o y.1 y.2 r).toList) ?_ ?_
  · rw [idx_lt 0 (by omega), idx_arr _ (Nat.mod_lt _ (by decide))]
    exact roundChk_eq o _ (by omega)
  · refine bind_ok (v := (if r < 16 * o.groups then scheduleC o y.2 r else y.2).toList) ?_ rfl
    unfold scheduleIfChk
    split
    · exact scheduleChk_eq o _ _
    · rfl

/-- All blocks. `k` is the word size for alignment. -/
theorem compressChk_eq {w bytes k : Nat} (hb : k ∣ bytes) {load : Mem → Raw.Region → Nat → Option (List (BitVec w))}
    {compressBlock : List (BitVec w) → List (BitVec w) → Option (List (BitVec w))} {ld : Mem → Nat → Arr w 16}
    {cb : Arr w 8 → Arr w 16 → Arr w 8} {strict : Bool} {m : Mem} {r : Raw.Region}
    (hl : ∀ p, r.lo ≤ p → p + bytes ≤ r.hi → (strict = true → r.lo ≤ p - p % k) → load m r p = some (ld m p).toList)
    (hc : ∀ s b, compressBlock s.toList b.toList = some (cb s b).toList) {p n : Nat} (hlo : r.lo ≤ p) (hhi : p + bytes * n ≤ r.hi)
    (hs : strict = true → r.lo ≤ p - p % k) (s : Arr w 8) :
    compressChk bytes load compressBlock m r p n s.toList = some (compress bytes ld cb m p n s).toList := by
  refine loop_arr (fun s i => cb s (ld m (p + bytes * i))) (fun i y hi => ?_) s
  have h1 : bytes * (i + 1) ≤ bytes * n := Nat.mul_le_mul_left _ hi
  rw [Nat.mul_succ] at h1
  refine bind_ok (hl _ (by omega) (by omega) fun e => ?_) (hc _ _)
  have h2 := hs e
  obtain ⟨c, rfl⟩ := hb
  have h3 : (p + k * c * i) % k = p % k := by rw [Nat.mul_assoc, Nat.add_mul_mod_self_left]
  have h4 := Nat.mod_le p k
  rw [h3]
  omega

theorem loadChk_none {w n xlen : Nat} (hw : 0 < w / 8) (hn : 1 < n) (fin : BitVec w → BitVec w) (m : Mem) {r : Raw.Region} {p : Nat}
    (ha : p % (w / 8) ≠ 0) (hlo : p - p % (w / 8) < r.lo) : loadChk true xlen n fin m r p = none := by
  rw [loadChk, if_neg ha, loadUnalignedChk_none hw hn fin m ha hlo]

theorem compressChk_none {w bytes : Nat} {load : Mem → Raw.Region → Nat → Option (List (BitVec w))}
    {compressBlock : List (BitVec w) → List (BitVec w) → Option (List (BitVec w))} {m : Mem} {r : Raw.Region} {p n : Nat} (hn : 0 < n)
    (h : load m r p = none) (s : List (BitVec w)) : compressChk bytes load compressBlock m r p n s = none := by
  obtain ⟨k, rfl⟩ : ∃ k, n = 1 + k := ⟨n - 1, by omega⟩
  rw [compressChk, loop_add, loop_succ, loop_zero, Option.bind_some, Nat.mul_zero, Nat.add_zero, h]
  rfl

end Hashes.Sha2Riscv
