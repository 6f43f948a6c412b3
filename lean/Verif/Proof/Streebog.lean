import Verif.Model.Streebog
import Verif.Spec.Streebog
import Verif.Proof.Limbs
import Verif.Proof.Kupyna
import Verif.Proof.Whirlpool
/- Helper lemmas: the modelled Streebog equals its specification. -/
namespace Hashes
namespace Streebog
open Spec (cell grid gridXor gridOf xorSum limbsLE)
open Whirlpool (mat cell_mat mat_words flatten_mat get_zip)

set_option exponentiation.threshold 1000

/-! ### Tables -/

set_option maxRecDepth 10000 in
theorem pNat_eq : pNat = (List.range 256).map Spec.Streebog.pi := by decide +kernel

set_option maxRecDepth 10000 in
theorem aNat_eq : aNat = (List.range 64).map fun t => ofLE (Spec.Streebog.row (63 - t)) := by decide +kernel

theorem P_get {x : Nat} (hx : x < 256) : P.getD x 0 = BitVec.ofNat 8 (Spec.Streebog.pi x) := by
  rw [P, pNat_eq, List.map_map, getD_map_range _ _ _ hx]; rfl

theorem A_get {t u : Nat} (ht : t < 64) (hu : u < 8) :
    byteAt (A.getD t 0) u = (Spec.Streebog.row (63 - t)).getD u 0 := by
  rw [A, aNat_eq, List.map_map, getD_map_range _ _ _ ht]
  simp only [Function.comp, Spec.Streebog.row]
  rw [byteAt_pack _ hu, getD_map_range _ _ _ hu]

theorem bit_test (p : Byte) (k : Nat) (hk : k < 8) : p &&& ((1 : Byte) <<< k) ≠ 0 ↔ p.getLsbD k = true := by
  have h : ∀ x < 256, ∀ k < 8, (BitVec.ofNat 8 x &&& ((1 : Byte) <<< k) ≠ 0 ↔ (BitVec.ofNat 8 x).getLsbD k = true) := by
    decide +kernel
  have := h p.toNat p.isLt k hk
  rwa [BitVec.ofNat_toNat, BitVec.setWidth_eq] at this

theorem xorSum_succ (n : Nat) (f : Nat → Byte) : xorSum (n + 1) f = xorSum n f ^^^ f n := by
  rw [xorSum, List.range_succ, List.foldl_append]; rfl

theorem xorSum_congr {n : Nat} {f g : Nat → Byte} (h : ∀ k < n, f k = g k) : xorSum n f = xorSum n g := by
  induction n with
  | zero => rfl
  | succ n ih => rw [xorSum_succ, xorSum_succ, ih fun k hk => h k (by omega), h n (by omega)]

theorem xorSum_add (a b : Nat) (f : Nat → Byte) : xorSum (a + b) f = xorSum a f ^^^ xorSum b fun k => f (a + k) := by
  induction b with
  | zero => rw [show xorSum 0 (fun k => f (a + k)) = 0#8 from rfl, BitVec.xor_zero]; rfl
  | succ b ih => rw [← Nat.add_assoc, xorSum_succ, xorSum_succ, ih, BitVec.xor_assoc]

theorem xorSum_mul (n : Nat) (f : Nat → Byte) : xorSum (8 * n) f = xorSum n fun j => xorSum 8 fun k => f (8 * j + k) := by
  induction n with
  | zero => rfl
  | succ n ih => rw [show 8 * (n + 1) = 8 * n + 8 by omega, xorSum_add, ih, xorSum_succ n]

theorem byteAt_accum {i x u : Nat} (hi : i < 8) (hx : x < 256) (hu : u < 8) :
    byteAt (accum i x) u = xorSum 8 fun k =>
      if (BitVec.ofNat 8 (Spec.Streebog.pi x)).getLsbD k then (Spec.Streebog.row (63 - (8 * i + k))).getD u 0 else 0 := by
  have h : ∀ n, n ≤ 8 → byteAt ((List.range n).foldl (fun acc k =>
      if P.getD x 0 &&& ((1 : Byte) <<< k) ≠ 0 then acc ^^^ A.getD (8 * i + k) 0 else acc) (0 : W64)) u =
      xorSum n fun k =>
      if (BitVec.ofNat 8 (Spec.Streebog.pi x)).getLsbD k then (Spec.Streebog.row (63 - (8 * i + k))).getD u 0 else 0 := by
    intro n hn
    induction n with
    | zero => exact byteAt_zero u
    | succ n ih =>
      rw [List.range_succ, List.foldl_append, List.foldl_cons, List.foldl_nil, xorSum_succ, ← ih (by omega)]
      have hb := bit_test (P.getD x 0) n (by omega)
      rw [P_get hx] at hb ⊢
      by_cases e : (BitVec.ofNat 8 (Spec.Streebog.pi x)).getLsbD n = true
      · rw [if_pos (hb.2 e), if_pos e, byteAt_xor, A_get (by omega) hu]
      · rw [if_neg (fun h => e (hb.1 h)), if_neg e, show (0 : Byte) = 0#8 from rfl, BitVec.xor_zero]
  exact h 8 (Nat.le_refl _)

theorem xorSum_zero (n : Nat) (f : Nat → Byte) (h : ∀ k < n, f k = 0) : xorSum n f = 0 := by
  induction n with
  | zero => rfl
  | succ n ih => rw [xorSum_succ, ih fun k hk => h k (by omega), h n (by omega)]; rfl

theorem xorSum_single (n j : Nat) (hj : j < n) (f : Nat → Byte) (h : ∀ k < n, k ≠ j → f k = 0) : xorSum n f = f j := by
  induction n with
  | zero => omega
  | succ n ih =>
    rw [xorSum_succ]
    by_cases e : j = n
    · subst e
      rw [xorSum_zero _ _ fun k hk => h k (by omega) (by omega), show (0 : Byte) = 0#8 from rfl, BitVec.zero_xor]
    · rw [ih (by omega) fun k hk => h k (by omega), h n (by omega) (by omega), show (0 : Byte) = 0#8 from rfl, BitVec.xor_zero]

theorem other_byte {i j : Nat} (hj : j < 8) (h : i ≠ j) (p : Byte) (u : Nat) :
    (xorSum 8 fun k => if ((List.replicate j 0 ++ [p] ++ List.replicate (7 - j) 0).getD ((8 * i + k) / 8) 0).getLsbD
      ((8 * i + k) % 8) then (Spec.Streebog.row (63 - (8 * i + k))).getD u 0 else 0) = 0 := by
  apply xorSum_zero
  intro k hk
  have e : (List.replicate j 0 ++ [p] ++ List.replicate (7 - j) 0).getD i 0 = 0 := by
    rw [List.append_assoc, List.getD_eq_getElem?_getD]
    by_cases hi : i < j
    · rw [List.getElem?_append_left (by simpa using hi)]; simp [hi]
    · rw [List.getElem?_append_right (by simp; omega), List.length_replicate]
      obtain ⟨d, hd⟩ : ∃ d, i - j = d + 1 := ⟨i - j - 1, by omega⟩
      rw [hd, List.singleton_append, List.getElem?_cons_succ, List.getElem?_replicate]
      split <;> rfl
  rw [show (8 * i + k) / 8 = i by omega, e, if_neg (by simp)]

theorem this_byte {j : Nat} (hj : j < 8) (p : Byte) (u : Nat) :
    (xorSum 8 fun k => if ((List.replicate j 0 ++ [p] ++ List.replicate (7 - j) 0).getD ((8 * j + k) / 8) 0).getLsbD
      ((8 * j + k) % 8) then (Spec.Streebog.row (63 - (8 * j + k))).getD u 0 else 0) =
    xorSum 8 fun k => if p.getLsbD k then (Spec.Streebog.row (63 - (8 * j + k))).getD u 0 else 0 := by
  apply xorSum_congr
  intro k hk
  have e : (List.replicate j 0 ++ [p] ++ List.replicate (7 - j) 0).getD j 0 = p := by
    rw [List.append_assoc, List.getD_eq_getElem?_getD, List.getElem?_append_right (by simp), List.length_replicate, Nat.sub_self]
    rfl
  rw [show (8 * j + k) / 8 = j by omega, show (8 * j + k) % 8 = k by omega, e]

theorem table_get {j x : Nat} (hj : j < 8) (hx : x < 256) : (SHUFFLED_LIN_TABLE.getD j []).getD x 0 = accum j x := by
  rw [SHUFFLED_LIN_TABLE, getD_map_range _ _ _ hj, getD_map_range _ _ _ hx]

/-- Table look-ups: `LPS`. -/
theorem mat_lps (h n : V8 W64) : mat (lps h n) = Spec.Streebog.LPS (Spec.Streebog.X (mat h) (mat n)) := by
  rw [lps, show Spec.Streebog.X (mat h) (mat n) = mat (h.zip (· ^^^ ·) n) from (Whirlpool.mat_xor h n).symm]
  generalize h.zip (· ^^^ ·) n = a
  rw [Spec.Streebog.LPS, Spec.Streebog.L, mat, gridLE]
  apply grid_congr
  intro i hi u hu
  rw [V8.get_ofFn _ hi, Spec.Streebog.l, show ∀ f, xorSum 64 f = xorSum (8 * 8) f from fun _ => rfl, xorSum_mul]
  have e : ∀ m, m ≤ 8 → byteAt ((List.range m).foldl (fun b j =>
      b ^^^ (SHUFFLED_LIN_TABLE.getD j []).getD ((a.get j >>> (8 * i)) &&& 0xff).toNat 0) (0 : W64)) u =
      xorSum m fun j => byteAt (accum j (byteAt (a.get j) i).toNat) u := by
    intro m hm
    induction m with
    | zero => exact byteAt_zero u
    | succ m ih =>
      rw [List.range_succ, List.foldl_append, List.foldl_cons, List.foldl_nil, xorSum_succ, ← ih (by omega), byteAt_xor,
        toNat_shift_and, table_get (by omega) (byteAt (a.get m) i).isLt]
  rw [e 8 (Nat.le_refl _)]
  apply xorSum_congr
  intro j hj
  rw [byteAt_accum hj (byteAt (a.get j) i).isLt hu]
  apply xorSum_congr
  intro k hk
  have hc : ((Spec.Streebog.P (Spec.Streebog.S (mat a))).getD i []).getD j 0 =
      BitVec.ofNat 8 (Spec.Streebog.pi (byteAt (a.get j) i).toNat) := by
    change cell _ i j = _
    rw [Spec.Streebog.P, cell_grid _ _ _ hi hj, Spec.Streebog.S, cell_grid _ _ _ hj hi, cell_mat _ hj hi]
  rw [show (8 * j + k) / 8 = j by omega, show (8 * j + k) % 8 = k by omega, hc]

/-! ### The compression function -/

/-- The iteration constants as grids. -/
def consts : List Spec.Grid := C.map (gridOf 8 8)

theorem mat_C64 : C64.map mat = consts := by
  rw [C64, consts, List.map_map]
  apply List.map_congr_left
  intro c _
  simp only [Function.comp]
  rw [mat, gridLE, gridOf]
  apply grid_congr
  intro i hi j hj
  rw [V8.get_ofFn _ hi, byteAt_pack _ hj]

theorem mat_xor (a b : V8 W64) : mat (a.zip (· ^^^ ·) b) = Spec.Streebog.X (mat a) (mat b) := Whirlpool.mat_xor a b

theorem X_comm (a b : Spec.Grid) : Spec.Streebog.X a b = Spec.Streebog.X b a := Kupyna.gridXor_comm 8 a b

theorem mat_E (cs : List (V8 W64)) (key m : V8 W64) :
    mat ((cs.foldl (fun (kb : V8 W64 × V8 W64) c => (lps kb.1 c, lps kb.2 kb.1)) (key, m)).2.zip (· ^^^ ·)
      (cs.foldl (fun (kb : V8 W64 × V8 W64) c => (lps kb.1 c, lps kb.2 kb.1)) (key, m)).1) =
    Spec.Streebog.E (cs.map mat) (mat key) (mat m) := by
  induction cs generalizing key m with
  | nil => rw [List.foldl_nil, mat_xor, X_comm]; rfl
  | cons c cs ih =>
    rw [List.foldl_cons, ih, mat_lps, mat_lps, X_comm (mat m)]; rfl

theorem mat_g (h n m : V8 W64) : mat (g h n m) = Spec.Streebog.g consts (mat n) (mat h) (mat m) := by
  rw [Spec.Streebog.g, ← mat_C64, ← mat_lps, ← mat_E, ← mat_xor, ← mat_xor, g]
  generalize C64.foldl _ _ = kb
  congr 1
  simp only [V8.zip, V8.ofFn, V8.get, V8.mk.injEq]
  refine ⟨?_, ?_, ?_, ?_, ?_, ?_, ?_, ?_⟩ <;> ac_rfl

/-! ### The 512-bit registers -/

theorem adc_spec (a b : W64) (c : Bool) :
    (adc a b c).1.toNat + 2 ^ 64 * (adc a b c).2.toNat = a.toNat + b.toNat + c.toNat := by
  have ha := a.isLt
  have hb := b.isLt
  cases c
  · simp only [adc, Bool.false_eq_true, if_false, BitVec.lt_def, BitVec.toNat_add, show ((0 : W64)).toNat = 0 from rfl, Bool.toNat_false]
    by_cases h : a.toNat + b.toNat < 2 ^ 64
    · have e : decide ((a.toNat + b.toNat) % 2 ^ 64 < a.toNat) = false := by simp only [decide_eq_false_iff_not]; omega
      rw [e]
      simp only [Nat.add_zero, Nat.mod_mod, Nat.lt_irrefl, decide_false, Bool.or_false, Bool.toNat_false]; omega
    · have e : decide ((a.toNat + b.toNat) % 2 ^ 64 < a.toNat) = true := by simp only [decide_eq_true_eq]; omega
      rw [e]
      simp only [Nat.add_zero, Nat.mod_mod, Bool.true_or, Bool.toNat_true]; omega
  · simp only [adc, if_true, BitVec.lt_def, BitVec.toNat_add, show ((1 : W64)).toNat = 1 from rfl, Bool.toNat_true]
    by_cases h : a.toNat + b.toNat < 2 ^ 64
    · have e : decide ((a.toNat + b.toNat) % 2 ^ 64 < a.toNat) = false := by simp only [decide_eq_false_iff_not]; omega
      rw [e]
      by_cases h2 : a.toNat + b.toNat + 1 < 2 ^ 64
      · have e2 : decide (((a.toNat + b.toNat) % 2 ^ 64 + 1) % 2 ^ 64 < (a.toNat + b.toNat) % 2 ^ 64) = false := by
          simp only [decide_eq_false_iff_not]; omega
        rw [e2]; simp only [Bool.or_false, Bool.toNat_false]; omega
      · have e2 : decide (((a.toNat + b.toNat) % 2 ^ 64 + 1) % 2 ^ 64 < (a.toNat + b.toNat) % 2 ^ 64) = true := by
          simp only [decide_eq_true_eq]; omega
        rw [e2]; simp only [Bool.or_true, Bool.toNat_true]; omega
    · have e : decide ((a.toNat + b.toNat) % 2 ^ 64 < a.toNat) = true := by simp only [decide_eq_true_eq]; omega
      rw [e]
      simp only [Bool.true_or, Bool.toNat_true]; omega

theorem length_addLimbs (xs ys : List W64) (c : Bool) (h : xs.length = ys.length) :
    (addLimbs xs ys c).length = xs.length := by
  induction xs generalizing ys c with
  | nil => rfl
  | cons x xs ih =>
    cases ys with
    | nil => cases h
    | cons y ys => rw [addLimbs, List.length_cons, List.length_cons, ih ys _ (by simpa using h)]

theorem addLimbs_spec (xs ys : List W64) (c : Bool) (h : xs.length = ys.length) :
    limbsLE (addLimbs xs ys c) = (limbsLE xs + limbsLE ys + c.toNat) % 2 ^ (64 * xs.length) := by
  induction xs generalizing ys c with
  | nil => simp [addLimbs, limbsLE, Nat.mod_one]
  | cons x xs ih =>
    cases ys with
    | nil => cases h
    | cons y ys =>
      have e := adc_spec x y c
      rw [addLimbs, limbsLE, limbsLE, limbsLE, ih ys _ (by simpa using h), List.length_cons,
        show 64 * (xs.length + 1) = 64 + 64 * xs.length by omega, Nat.pow_add, Nat.mod_mul]
      have h1 := (adc x y c).1.isLt
      generalize (adc x y c).1.toNat = r at *
      generalize (adc x y c).2.toNat = d at *
      congr 1
      · omega
      · congr 2; omega

/-- Value of a register. -/
def val (a : V8 W64) : Nat := limbsLE a.toList

theorem val_lt (a : V8 W64) : val a < 2 ^ 512 := limbsLE_lt a.toList

theorem toList_ofFn_getD (l : List W64) (h : l.length = 8) : (V8.ofFn fun i => l.getD i 0).toList = l := by
  match l, h with
  | [_, _, _, _, _, _, _, _], _ => rfl

theorem val_updateSigma (s m : V8 W64) : val (updateSigma s m) = (val s + val m) % 2 ^ 512 := by
  have hl := length_addLimbs s.toList m.toList false rfl
  rw [val, updateSigma, toList_ofFn_getD _ hl]
  have := addLimbs_spec s.toList m.toList false rfl
  rwa [Bool.toNat_false, Nat.add_zero, show 64 * s.toList.length = 512 from rfl] at this

theorem limbs_snoc (l : List W64) (x : W64) : limbsLE (l ++ [x]) = limbsLE l + 2 ^ (64 * l.length) * x.toNat := by
  induction l with
  | nil => simp [limbsLE]
  | cons y l ih =>
    rw [List.cons_append, limbsLE, limbsLE, ih, List.length_cons, show 64 * (l.length + 1) = 64 + 64 * l.length by omega,
      Nat.pow_add, Nat.mul_add, Nat.add_assoc, Nat.mul_assoc]

theorem val_updateN (n : V8 W64) (len : W64) :
    val (updateN n len) = (limbsLE [n.x0, n.x1, n.x2, n.x3, n.x4, n.x5, n.x6] + ((8 : W64) * len).toNat) % 2 ^ 448 +
      2 ^ 448 * n.x7.toNat := by
  have hl := length_addLimbs [n.x0, n.x1, n.x2, n.x3, n.x4, n.x5, n.x6] [8 * len, 0, 0, 0, 0, 0, 0] false rfl
  have hs := addLimbs_spec [n.x0, n.x1, n.x2, n.x3, n.x4, n.x5, n.x6] [8 * len, 0, 0, 0, 0, 0, 0] false rfl
  rw [val, updateN]
  generalize addLimbs _ _ _ = l at hl hs
  have e : (V8.ofFn fun i => if i < 7 then l.getD i 0 else n.x7).toList = l ++ [n.x7] := by
    match l, hl with
    | [_, _, _, _, _, _, _], _ => rfl
  rw [e, limbs_snoc, hs, hl]
  have e2 : limbsLE [8 * len, 0, 0, 0, 0, 0, 0] = ((8 : W64) * len).toNat := by
    simp only [limbsLE, show (0 : W64).toNat = 0 from rfl, Nat.mul_zero, Nat.add_zero]
  rw [e2]
  simp only [List.length_cons, List.length_nil, Bool.toNat_false, Nat.add_zero, Nat.zero_add, Nat.reduceAdd, Nat.reduceMul]

theorem val_split (n : V8 W64) :
    val n = limbsLE [n.x0, n.x1, n.x2, n.x3, n.x4, n.x5, n.x6] + 2 ^ 448 * n.x7.toNat := by
  rw [val, show n.toList = [n.x0, n.x1, n.x2, n.x3, n.x4, n.x5, n.x6] ++ [n.x7] from rfl, limbs_snoc]
  simp only [List.length_cons, List.length_nil, Nat.zero_add, Nat.reduceAdd, Nat.reduceMul]

theorem limbs7_lt (n : V8 W64) : limbsLE [n.x0, n.x1, n.x2, n.x3, n.x4, n.x5, n.x6] < 2 ^ 448 := limbsLE_lt _

/-- While the sum stays below 2^448 the counter is exact. -/
theorem val_updateN_exact (n : V8 W64) (len : W64) (h : val n + ((8 : W64) * len).toNat < 2 ^ 448) :
    val (updateN n len) = val n + ((8 : W64) * len).toNat := by
  have hs := val_split n
  have := limbs7_lt n
  rw [val_updateN]
  generalize ((8 : W64) * len).toNat = x at *
  generalize limbsLE [n.x0, n.x1, n.x2, n.x3, n.x4, n.x5, n.x6] = y at *
  have : n.x7.toNat = 0 := by
    apply Nat.eq_zero_of_not_pos
    intro hp
    have := Nat.mul_le_mul_left (2 ^ 448) hp
    omega
  rw [this] at hs ⊢
  rw [Nat.mod_eq_of_lt (by omega)]
  omega

theorem mat_val (a : V8 W64) : mat a = Spec.Streebog.vec (val a) := by
  have h : gridOf 8 8 (mat a).flatten = mat a := by rw [mat, gridLE]; exact Kupyna.gridOf_flatten 8 _
  rw [← h, flatten_mat, bytes_limbs]; rfl

theorem val_fromBytes (b : Bytes) (h : b.length = 64) : val (fromBytes b) = ofLE b := limbs_words b 8 (by omega)

theorem mat_fromBytes (b : Bytes) (h : b.length = 64) : mat (fromBytes b) = gridOf 8 8 b := mat_words b h

/-- The abstraction of a state. -/
def abs (s : State) : Spec.Streebog.St := (mat s.h, val s.n, val s.sigma)

theorem abs_compress (s : State) (b : Bytes) (hb : b.length = 64) (len : Nat) (hl : len ≤ 64)
    (hn : val s.n + 8 * len < 2 ^ 448) :
    abs (compress s b (BitVec.ofNat 64 len)) = Spec.Streebog.step consts (8 * len) (abs s) b := by
  have h8 : ((8 : W64) * BitVec.ofNat 64 len).toNat = 8 * len := by
    rw [BitVec.toNat_mul, BitVec.toNat_ofNat, show (8 : W64).toNat = 8 from rfl]; omega
  simp only [abs, compress, Spec.Streebog.step]
  rw [mat_g, mat_fromBytes b hb, ← mat_val, val_updateSigma, val_fromBytes b hb, val_updateN_exact _ _ (by rw [h8]; exact hn), h8,
    Nat.mod_eq_of_lt (show val s.n + 8 * len < 2 ^ 512 from Nat.lt_trans hn (Nat.pow_lt_pow_right (by decide) (by decide)))]

theorem abs_blocks (l : List Bytes) (hl : ∀ b ∈ l, b.length = 64) (s : State)
    (hn : val s.n + 512 * l.length < 2 ^ 448) :
    abs (updateBlocks s l) = l.foldl (Spec.Streebog.step consts 512) (abs s) ∧
    val (updateBlocks s l).n = val s.n + 512 * l.length := by
  induction l generalizing s with
  | nil => exact ⟨rfl, rfl⟩
  | cons x l ih =>
    rw [List.length_cons] at hn
    have hx := abs_compress s x (hl x List.mem_cons_self) 64 (Nat.le_refl _)
      (Nat.lt_of_le_of_lt (show val s.n + 8 * 64 ≤ val s.n + 512 * (l.length + 1) by omega) hn)
    have hv : val (compress s x 64).n = val s.n + 512 := by
      have : val (updateN s.n 64) = val s.n + ((8 : W64) * 64).toNat := val_updateN_exact _ _ (by
        rw [show ((8 : W64) * 64).toNat = 512 from rfl]
        exact Nat.lt_of_le_of_lt (show val s.n + 512 ≤ val s.n + 512 * (l.length + 1) by omega) hn)
      rw [show ((8 : W64) * 64).toNat = 512 from rfl] at this
      exact this
    rw [List.foldl_cons, ← hx]
    have := ih (fun b hb => hl b (List.mem_cons_of_mem _ hb)) (compress s x 64) (by rw [hv]; omega)
    refine ⟨this.1, ?_⟩
    rw [show updateBlocks s (x :: l) = updateBlocks (compress s x 64) l from rfl, this.2, hv, List.length_cons]; omega

/-! ### Interface laws -/

theorem lawful : varCore.Lawful where
  bs_pos := by decide
  nil := fun s => rfl
  app := fun s x y => by simp [varCore, updateBlocks]
  fin_congr := fun s b b' h h' hc => by
    simp only [varCore, finalizeFull, BlockBuffer.padWithZeros]
    have := pos_congr h h' hc
    simp only [BlockBuffer.content] at hc
    rw [this] at hc ⊢
    rw [hc]

theorem length_toBytes (a : V8 W64) : (toBytes a).length = 64 := by
  rw [toBytes, length_bytesOfWordsLE]; rfl

theorem from_to (a : V8 W64) : fromBytes (toBytes a) = a := by
  have h : ∀ i (hi : i < 8), wordLE 64 (toBytes a) i = a.toList.getD i 0 := fun i hi => by
    have := wordLE_append (by decide) a.toList [] (0 : W64) (i := i) (by simpa [V8.toList] using hi)
    rwa [List.append_nil] at this
  simp only [fromBytes, V8.ofFn, h 0 (by decide), h 1 (by decide), h 2 (by decide), h 3 (by decide), h 4 (by decide),
    h 5 (by decide), h 6 (by decide), h 7 (by decide)]
  rfl

theorem to_from (b : Bytes) (h : b.length = 64) : toBytes (fromBytes b) = b := by
  have e1 : (V8.ofFn (wordLE 64 b)).toList = (List.range 8).map (wordLE 64 b) := rfl
  rw [toBytes, fromBytes, e1, bytesOfWordsLE_range (by decide) _ _ (by omega), List.take_of_length_le (by omega)]

theorem serLawful : varCore.SerLawful where
  bs_le := by decide
  len := fun s => by simp [varCore, serialize, length_toBytes]
  round := fun s => by
    simp only [varCore, serialize, deserialize]
    rw [if_pos (by simp [length_toBytes])]
    rw [List.append_assoc, List.take_left' (length_toBytes _), List.drop_left' (length_toBytes _),
      List.take_left' (length_toBytes _), ← List.append_assoc,
      List.drop_left' (by simp [length_toBytes]), from_to, from_to, from_to]
  canon := fun raw s h => by
    simp only [varCore, deserialize, serialize] at h ⊢
    split at h
    · rename_i hl
      injection h with h
      subst h
      rw [to_from _ (by simp; omega), to_from _ (by simp; omega), to_from _ (by simp; omega), List.append_assoc,
        show raw.drop 128 = (raw.drop 64).drop 64 by rw [List.drop_drop], List.take_append_drop, List.take_append_drop]
    · cases h

theorem digest_eq {N : Nat} {s0 : State} (h0 : new N = some s0) (m : Bytes) (hm : 8 * m.length < 2 ^ 448) :
    (varCore.ctWith N s0).digest m = Spec.Streebog.hash consts N m := by
  have hs : abs s0 = (Spec.Streebog.iv N, 0, 0) ∧ val s0.n = 0 := by
    unfold new at h0
    split at h0
    · injection h0 with h0; subst h0; decide +kernel
    · injection h0 with h0; subst h0; decide +kernel
    · cases h0
  obtain ⟨b, h1, h2, h3, h4⟩ := Core.digest_eager (lawful.ct N s0) rfl m
  rw [h4]
  simp only [varCore, VarCore.ctWith] at h1 h2 h3 ⊢
  have hb := abs_blocks (blocks 64 (m.length / 64) m)
    (fun b hb => length_of_mem_blocks (by omega) hb) s0 (by rw [hs.2, length_blocks]; omega)
  rw [hs.2, length_blocks] at hb
  rw [hs.1] at hb
  obtain ⟨hb1, hb2⟩ := hb
  simp only [finalizeFull, BlockBuffer.padWithZeros, Spec.Streebog.hash]
  have hc : b.data.take b.pos = m.drop (64 * (m.length / 64)) := by
    rw [Nat.mul_comm]; exact h2
  rw [hc, h3]
  have hr : (m.drop (64 * (m.length / 64))).length = m.length % 64 := by rw [List.length_drop]; omega
  have hlt : m.length % 64 < 64 := Nat.mod_lt _ (by decide)
  generalize hst : updateBlocks s0 (blocks 64 (m.length / 64) m) = st at hb1 hb2
  have hblk : (m.drop (64 * (m.length / 64)) ++ List.replicate (64 - m.length % 64) 0).set (m.length % 64) 1 =
      m.drop (64 * (m.length / 64)) ++ [1] ++ List.replicate (63 - (m.drop (64 * (m.length / 64))).length) 0 := by
    rw [hr]
    generalize m.drop (64 * (m.length / 64)) = r at hr ⊢
    rw [← hr, List.set_append_right _ _ (Nat.le_refl _), Nat.sub_self]
    obtain ⟨d, hd⟩ : ∃ d, 64 - r.length = d + 1 := ⟨63 - r.length, by omega⟩
    rw [hd, List.replicate_succ, List.set_cons_zero, List.append_assoc, show 63 - r.length = d by omega]
    rfl
  rw [hblk, ← hr]
  have hx := abs_compress st (m.drop (64 * (m.length / 64)) ++ [1] ++ List.replicate (63 - (m.drop (64 * (m.length / 64))).length) 0)
    (by simp; omega) (m.drop (64 * (m.length / 64))).length (by omega) (by rw [hb2]; omega)
  rw [hb1] at hx
  rw [← hx]
  generalize compress st _ _ = s2
  have e : ∀ x : V8 W64, toBytes x = (mat x).flatten := fun x => (flatten_mat x).symm
  have z : mat zero = Spec.Streebog.vec 0 := mat_val zero
  rw [e, mat_g, mat_g, z]
  simp only [abs]
  rw [← mat_val, ← mat_val, truncate]
  rw [show (Spec.Streebog.g consts (Spec.Streebog.vec 0) (Spec.Streebog.g consts (Spec.Streebog.vec 0) (mat s2.h) (mat s2.n))
    (mat s2.sigma)).flatten.length = 64 from Kupyna.length_flatten_grid 8 _]

end Streebog
end Hashes
