import Verif.Model.Whirlpool
import Verif.Spec.Whirlpool
import Verif.Proof.Md
import Verif.Proof.Grid
/- Helper lemmas: the modelled Whirlpool equals its specification. -/
namespace Hashes
namespace Whirlpool
open Spec (cell grid gridXor gridOf)

/-! ### Tables -/

/-- The products of the first row of the circulant with the S-box value. -/
def row (x : Nat) : List Byte := Spec.Whirlpool.c.map fun a => Spec.gmul 0x11D a (Spec.Whirlpool.S (BitVec.ofNat 8 x))

set_option maxRecDepth 10000 in
theorem tabs_eq : [tabNat0, tabNat1, tabNat2, tabNat3, tabNat4, tabNat5, tabNat6, tabNat7] =
    (List.range 8).map fun j => (List.range 256).map fun x =>
      ofLE ((List.range 8).map fun t => (row x).getD ((t + 8 - j) % 8) 0) := by
  decide +kernel

/-- `C_j[x]` consists of the products of row `j` of the circulant with the S-box value. -/
theorem tables (j : Nat) (hj : j < 8) (x : Nat) (hx : x < 256) (t : Nat) (ht : t < 8) :
    byteAt ((C.getD j []).getD x 0) t =
    Spec.gmul 0x11D (Spec.Whirlpool.c.getD ((t + 8 - j) % 8) 0) (Spec.Whirlpool.S (BitVec.ofNat 8 x)) := by
  rw [C, tabs_eq, List.map_map, getD_map_range _ _ _ hj]
  simp only [Function.comp, List.map_map]
  rw [getD_map_range _ _ _ hx]
  simp only [Function.comp]
  rw [byteAt_pack _ ht]
  have : (t + 8 - j) % 8 < 8 := Nat.mod_lt _ (by decide)
  generalize (t + 8 - j) % 8 = i at this
  match i, this with
  | 0, _ | 1, _ | 2, _ | 3, _ | 4, _ | 5, _ | 6, _ | 7, _ => rfl

theorem rc_tables : ∀ r < 10, ∀ t < 8, byteAt (RC.getD r 0) t = Spec.Whirlpool.S (BitVec.ofNat 8 (8 * r + t)) := by
  decide +kernel

theorem byteAt_look (k : V8 W64) (j a t : Nat) (hj : j < 8) (ht : t < 8) :
    byteAt (look k j a) t =
      Spec.gmul 0x11D (Spec.Whirlpool.c.getD ((t + 8 - j) % 8) 0) (Spec.Whirlpool.S (byteAt (k.get a) j)) := by
  rw [look, toNat_shift_and, tables j hj _ (byteAt (k.get a) j).isLt t ht, BitVec.ofNat_toNat, BitVec.setWidth_eq]

/-! ### Rounds -/

/-- The state as a matrix: word `i` is row `i`, least significant byte first. -/
def mat (s : V8 W64) : Spec.Grid := gridLE 8 s.get

theorem cell_mat (s : V8 W64) {i j : Nat} (hi : i < 8) (hj : j < 8) : cell (mat s) i j = byteAt (s.get i) j :=
  cell_grid _ _ _ hi hj

theorem byteAt_line (k : V8 W64) (i t : Nat) (hi : i < 8) (ht : t < 8) :
    byteAt (line k i) t =
      cell (Spec.Whirlpool.theta (Spec.Whirlpool.pi (Spec.Whirlpool.gamma (mat k)))) i t := by
  have hg : ∀ a b, a < 8 → b < 8 → cell (Spec.Whirlpool.gamma (mat k)) a b = Spec.Whirlpool.S (byteAt (k.get a) b) :=
    fun a b ha hb => by rw [Spec.Whirlpool.gamma, cell_grid _ _ _ ha hb, cell_mat _ ha hb]
  have hp : ∀ j, j < 8 → cell (Spec.Whirlpool.pi (Spec.Whirlpool.gamma (mat k))) i j =
      Spec.Whirlpool.S (byteAt (k.get ((i + 8 - j) % 8)) j) := fun j hj => by
    rw [Spec.Whirlpool.pi, cell_grid _ _ _ hi hj, hg _ _ (Nat.mod_lt _ (by decide)) hj]
  rw [Spec.Whirlpool.theta, cell_grid _ _ _ hi ht, xorSum8]
  rw [hp 0 (by decide), hp 1 (by decide), hp 2 (by decide), hp 3 (by decide), hp 4 (by decide), hp 5 (by decide),
    hp 6 (by decide), hp 7 (by decide)]
  simp only [line, byteAt_xor]
  rw [byteAt_look _ _ _ _ (by decide) ht, byteAt_look _ _ _ _ (by decide) ht, byteAt_look _ _ _ _ (by decide) ht,
    byteAt_look _ _ _ _ (by decide) ht, byteAt_look _ _ _ _ (by decide) ht, byteAt_look _ _ _ _ (by decide) ht,
    byteAt_look _ _ _ _ (by decide) ht, byteAt_look _ _ _ _ (by decide) ht]
  rw [show i % 8 = (i + 8 - 0) % 8 by omega, show 7 + i = i + 8 - 1 by omega, show 6 + i = i + 8 - 2 by omega,
    show 5 + i = i + 8 - 3 by omega, show 4 + i = i + 8 - 4 by omega, show 3 + i = i + 8 - 5 by omega,
    show 2 + i = i + 8 - 6 by omega, show 1 + i = i + 8 - 7 by omega]

theorem mat_roundK (k : V8 W64) (r : Nat) (hr : r < 10) :
    mat (V8.ofFn fun i => line k i ^^^ (if i = 0 then RC.getD r 0 else 0)) =
      Spec.Whirlpool.rho (Spec.Whirlpool.rc (r + 1)) (mat k) := by
  rw [Spec.Whirlpool.rho, Spec.Whirlpool.sigma, gridXor, mat, gridLE]
  apply grid_congr
  intro a ha b hb
  rw [V8.get_ofFn _ ha, byteAt_xor, byteAt_line _ _ _ ha hb, Spec.Whirlpool.rc, cell_grid _ _ _ ha hb]
  congr 1
  by_cases h : a = 0
  · simp only [h, if_true]
    rw [rc_tables r hr b hb]; simp
  · simp only [h, if_false]
    exact byteAt_zero b

theorem mat_roundS (k s : V8 W64) :
    mat (V8.ofFn fun i => line s i ^^^ k.get i) = Spec.Whirlpool.rho (mat k) (mat s) := by
  rw [Spec.Whirlpool.rho, Spec.Whirlpool.sigma, gridXor, mat, gridLE]
  apply grid_congr
  intro a ha b hb
  rw [V8.get_ofFn _ ha, byteAt_xor, byteAt_line _ _ _ ha hb, cell_mat _ ha hb]

theorem get_zip (f : W64 → W64 → W64) (a b : V8 W64) (i : Nat) : (a.zip f b).get i = f (a.get i) (b.get i) := by
  unfold V8.get V8.zip; split <;> rfl

theorem mat_xor (a b : V8 W64) : mat (a.zip (· ^^^ ·) b) = gridXor 8 8 (mat a) (mat b) := by
  rw [gridXor, mat, gridLE]
  apply grid_congr
  intro i hi j hj
  rw [get_zip, byteAt_xor, cell_mat _ hi hj, cell_mat _ hi hj]

theorem rounds_eq (k m : V8 W64) (n : Nat) (hn : n ≤ 10) :
    mat ((List.range n).foldl roundBody (k, m.zip (· ^^^ ·) k)).1 = Spec.Whirlpool.key (mat k) n ∧
    mat ((List.range n).foldl roundBody (k, m.zip (· ^^^ ·) k)).2 = Spec.Whirlpool.rounds (mat k) (mat m) n := by
  induction n with
  | zero => exact ⟨rfl, by rw [Spec.Whirlpool.rounds, Spec.Whirlpool.sigma, Spec.Whirlpool.key]; exact mat_xor m k⟩
  | succ n ih =>
    obtain ⟨h1, h2⟩ := ih (by omega)
    simp only [List.range_succ, List.foldl_append, List.foldl_cons, List.foldl_nil]
    generalize (List.range n).foldl roundBody (k, m.zip (· ^^^ ·) k) = ks at h1 h2 ⊢
    have e1 : mat (roundBody ks n).1 = Spec.Whirlpool.key (mat k) (n + 1) := by
      rw [Spec.Whirlpool.key, ← h1]; exact mat_roundK ks.1 n (by omega)
    refine ⟨e1, ?_⟩
    rw [Spec.Whirlpool.rounds, ← h2, ← e1]
    exact mat_roundS _ _

theorem mat_words (b : Bytes) (hb : b.length = 64) : mat (V8.ofFn (wordLE 64 b)) = gridOf 8 8 b := by
  rw [gridOf, mat, gridLE]
  apply grid_congr
  intro i hi j hj
  rw [V8.get_ofFn _ hi, byteAt_wordLE _ _ _ hj (by omega)]

theorem compress_eq (s : V8 W64) (b : Bytes) (hb : b.length = 64) :
    mat (compress s b) = Spec.Whirlpool.compress (mat s) b := by
  rw [Spec.Whirlpool.compress, Spec.Whirlpool.W, ← mat_words b hb, ← (rounds_eq s _ 10 (by decide)).2, ← mat_xor, ← mat_xor]
  rw [compress]
  generalize ((List.range 10).foldl roundBody _).2 = x
  simp only [V8.zip, V8.mk.injEq, mat]
  congr 2
  all_goals simp only [V8.mk.injEq]; refine ⟨?_, ?_, ?_, ?_, ?_, ?_, ?_, ?_⟩ <;> ac_rfl

theorem foldl_compress (l : List Bytes) (hl : ∀ b ∈ l, b.length = 64) (s : V8 W64) :
    mat (l.foldl compress s) = l.foldl Spec.Whirlpool.compress (mat s) := by
  induction l generalizing s with
  | nil => rfl
  | cons x l ih =>
    rw [List.foldl_cons, List.foldl_cons, ih (fun b hb => hl b (List.mem_cons_of_mem _ hb)),
      compress_eq _ _ (hl x List.mem_cons_self)]

theorem flatten_mat (s : V8 W64) : (mat s).flatten = bytesOfWordsLE s.toList := by
  have h : ∀ x : W64, leBytes (64 / 8) x.toNat = (List.range 8).map (byteAt x) := fun x => leBytes_word 8 x
  simp only [bytesOfWordsLE, h, V8.toList, mat, gridLE, grid]
  rfl

/-! ### The 256-bit length counter -/

/-- Value of the limbs, most significant first. -/
def val (b : V4 W64) : Nat := b.x0.toNat * 2 ^ 192 + b.x1.toNat * 2 ^ 128 + b.x2.toNat * 2 ^ 64 + b.x3.toNat

theorem adc_spec (a b c : W64) (hc : c.toNat ≤ 1) :
    (adc a b c).1.toNat + 2 ^ 64 * (adc a b c).2.toNat = a.toNat + b.toNat + c.toNat ∧ (adc a b c).2.toNat ≤ 1 := by
  have ha := a.isLt
  have hb := b.isLt
  simp only [adc, BitVec.toNat_setWidth, BitVec.toNat_add, BitVec.toNat_ushiftRight, Nat.shiftRight_eq_div_pow]
  omega

theorem val_updateLen (b : V4 W64) (len : W64) : val (updateLen b len) = (val b + len.toNat) % 2 ^ 256 := by
  unfold updateLen
  extract_lets r3 x3 r2 x2 r1 x1 r0 x0
  have h3 : _ ∧ _ := adc_spec b.x3 len 0 (by decide)
  have h2 : _ ∧ _ := adc_spec b.x2 0 r3.2 h3.2
  have h1 : _ ∧ _ := adc_spec b.x1 0 r2.2 h2.2
  have h0 : _ ∧ _ := adc_spec b.x0 0 r1.2 h1.2
  obtain ⟨h3, -⟩ := h3
  obtain ⟨h2, -⟩ := h2
  obtain ⟨h1, -⟩ := h1
  obtain ⟨h0, -⟩ := h0
  change x3.toNat + 2 ^ 64 * r3.2.toNat = _ at h3
  change x2.toNat + 2 ^ 64 * r2.2.toNat = _ at h2
  change x1.toNat + 2 ^ 64 * r1.2.toNat = _ at h1
  change x0.toNat + 2 ^ 64 * r0.2.toNat = _ at h0
  have l3 := x3.isLt
  have l2 := x2.isLt
  have l1 := x1.isLt
  have l0 := x0.isLt
  have z : (0 : W64).toNat = 0 := rfl
  rw [z] at h0 h1 h2 h3
  unfold val
  simp only
  omega

theorem val_inj {a b : V4 W64} (h : val a = val b) : a = b := by
  unfold val at h
  have := a.x0.isLt; have := a.x1.isLt; have := a.x2.isLt; have := a.x3.isLt
  have := b.x0.isLt; have := b.x1.isLt; have := b.x2.isLt; have := b.x3.isLt
  ext1 <;> apply BitVec.eq_of_toNat_eq <;> omega

theorem val_lt (a : V4 W64) : val a < 2 ^ 256 := by
  unfold val
  have := a.x0.isLt; have := a.x1.isLt; have := a.x2.isLt; have := a.x3.isLt
  omega

theorem val_blocks (b : V4 W64) (l : List Bytes) :
    val (l.foldl (fun l _ => updateLen l 512) b) = (val b + 512 * l.length) % 2 ^ 256 := by
  induction l generalizing b with
  | nil => rw [List.foldl_nil, List.length_nil, Nat.mul_zero, Nat.add_zero, Nat.mod_eq_of_lt (val_lt b)]
  | cons x l ih =>
    rw [List.foldl_cons, ih, val_updateLen, List.length_cons, show (512 : W64).toNat = 512 from rfl, Nat.mod_add_mod,
      show val b + 512 + 512 * l.length = val b + 512 * (l.length + 1) by omega]

theorem beBytes_val (b : V4 W64) : bytesOfWordsBE b.toList = beBytes 32 (val b) := by
  have e : ∀ x : W64, beBytes 8 x.toNat = beBytes 8 x.toNat := fun _ => rfl
  have h0 := b.x0.isLt; have h1 := b.x1.isLt; have h2 := b.x2.isLt; have h3 := b.x3.isLt
  rw [show (32 : Nat) = 24 + 8 from rfl, beBytes_append, show (24 : Nat) = 16 + 8 from rfl, beBytes_append,
    show (16 : Nat) = 8 + 8 from rfl, beBytes_append]
  simp only [bytesOfWordsBE, V4.toList, List.flatMap_cons, List.flatMap_nil, List.append_nil, List.append_assoc]
  have e0 : beBytes (64 / 8) b.x0.toNat = beBytes 8 (val b / 256 ^ 8 / 256 ^ 8 / 256 ^ 8) :=
    beBytes_congr (by unfold val; omega)
  have e1 : beBytes (64 / 8) b.x1.toNat = beBytes 8 (val b / 256 ^ 8 / 256 ^ 8) := beBytes_congr (by unfold val; omega)
  have e2 : beBytes (64 / 8) b.x2.toNat = beBytes 8 (val b / 256 ^ 8) := beBytes_congr (by unfold val; omega)
  have e3 : beBytes (64 / 8) b.x3.toNat = beBytes 8 (val b) := beBytes_congr (by unfold val; omega)
  rw [e0, e1, e2, e3]

/-! ### Interface laws -/

theorem lawful : whirlpool.Lawful (fun _ => True) where
  bs_pos := by decide
  nil := fun s => by simp [whirlpool, updateBlocks]
  app := fun s x y => by simp [whirlpool, updateBlocks]
  inv_init := trivial
  inv_update := fun _ _ _ _ => trivial
  reset_eq := fun _ _ => rfl
  fin_congr := fun s b b' h h' hc => by
    simp only [whirlpool, finalize]
    rw [pos_congr h h' hc, digestPad_congr (bs := 64) h h' hc (by simp [length_bytesOfWordsBE, V4.toList])]

theorem serLawful : whirlpool.SerLawful (fun _ => True) where
  bs_le := by decide
  len := fun s _ => by simp [whirlpool, serialize, length_bytesOfWordsLE, V4.toList, V8.toList]
  round := fun s _ => by
    simp only [whirlpool, serialize, deserialize]
    rw [if_pos (by simp [length_bytesOfWordsLE, V4.toList, V8.toList])]
    have h : ∀ i (hi : i < 8), wordLE 64 (bytesOfWordsLE s.state.toList ++ bytesOfWordsLE s.bitLen.toList) i =
      s.state.toList.getD i 0 := fun i hi => wordLE_append (by decide) _ _ _ (by simpa [V8.toList] using hi)
    have h' : ∀ i (hi : i < 4), wordLE 64 (bytesOfWordsLE s.bitLen.toList) i = s.bitLen.toList.getD i 0 := fun i hi => by
      have := wordLE_append (by decide) s.bitLen.toList [] (0 : W64) (i := i) (by simpa [V4.toList] using hi)
      rwa [List.append_nil] at this
    rw [List.drop_left' (by simp [length_bytesOfWordsLE, V8.toList])]
    simp only [V4.ofFn, V8.ofFn, h 0 (by decide), h 1 (by decide), h 2 (by decide), h 3 (by decide), h 4 (by decide),
      h 5 (by decide), h 6 (by decide), h 7 (by decide), h' 0 (by decide), h' 1 (by decide), h' 2 (by decide),
      h' 3 (by decide)]
    rfl

theorem deserLawful : whirlpool.DeserLawful where
  canon := fun raw s h => by
    simp only [whirlpool, deserialize, serialize] at h ⊢
    split at h
    · rename_i hl
      injection h with h
      subst h
      have e1 : (V8.ofFn (wordLE 64 raw)).toList = (List.range 8).map (wordLE 64 raw) := rfl
      have e2 : (V4.ofFn (wordLE 64 (raw.drop 64))).toList = (List.range 4).map (wordLE 64 (raw.drop 64)) := rfl
      rw [e1, e2, bytesOfWordsLE_range (by decide) _ _ (by omega), bytesOfWordsLE_range (by decide) _ _ (by simp; omega)]
      rw [List.take_of_length_le (l := raw.drop 64) (by simp; omega), List.take_append_drop]
    · cases h

theorem length_field (m : Bytes) :
    bytesOfWordsBE (updateLen ((blocks 64 (m.length / 64) m).foldl (fun l _ => updateLen l 512) ⟨0, 0, 0, 0⟩)
      (8 * BitVec.ofNat 64 (m.length % 64))).toList = beBytes 32 (8 * m.length) := by
  rw [beBytes_val, val_updateLen, val_blocks, length_blocks, Nat.mod_add_mod,
    show val ⟨0, 0, 0, 0⟩ = 0 from rfl]
  have : ((8 : W64) * BitVec.ofNat 64 (m.length % 64)).toNat = 8 * (m.length % 64) := by
    rw [BitVec.toNat_mul, BitVec.toNat_ofNat, show (8 : W64).toNat = 8 from rfl]; omega
  rw [this, show 0 + 512 * (m.length / 64) + 8 * (m.length % 64) = 8 * m.length by omega]
  apply beBytes_congr
  rw [show (2 : Nat) ^ 256 = 256 ^ 32 by decide]
  exact Nat.mod_mod _ _

theorem mat_zero : mat ⟨0, 0, 0, 0, 0, 0, 0, 0⟩ = grid 8 8 fun _ _ => 0 := by decide +kernel

theorem digest_eq (m : Bytes) : whirlpool.digest m = Spec.Whirlpool.whirlpool m := by
  obtain ⟨b, h1, h2, h3, h4⟩ := Core.digest_eager lawful rfl m
  rw [h4]
  simp only [whirlpool] at h1 h2 h3 ⊢
  simp only [finalize, updateBlocks, h3, init, length_field]
  have e := md_finalize (bs := 64) (by decide) h1 (delim := 0x80) (suffix := beBytes 32 (8 * m.length)) (by simp)
    compress ⟨0, 0, 0, 0, 0, 0, 0, 0⟩ m h2
  rw [show nFull .eager 64 m.length = m.length / 64 from rfl] at e
  rw [e, ← flatten_mat, Spec.Whirlpool.whirlpool, Spec.Whirlpool.pad,
    foldl_compress _ (fun b hb => length_of_mem_chunks hb), mat_zero]

end Whirlpool
end Hashes
