import Verif.Model.Kupyna
import Verif.Spec.Kupyna
import Verif.Proof.Groestl
/- Helper lemmas: the modelled Kupyna equals its specification. -/
namespace Hashes
namespace Kupyna
open Spec (cell grid gridXor gridOf)
open Groestl (mat cell_mat mat_xor mat_words flatten_mat bytesOfWordsBE_drop getD_beBytes)

theorem at'_eq (m : Matrix) (a b : Nat) : at' m a b = cell m a b := rfl
theorem build_eq (n : Nat) (f : Nat → Nat → Byte) : build n f = grid n 8 f := rfl

/-- The S-boxes of the code as functions. -/
def pi (i : Nat) (x : Byte) : Byte := (SBOXES.getD i []).getD x.toNat 0

/-- `multiply_gf` with the matrix entries is multiplication in GF(2^8). -/
theorem multiplyGf_eq : ∀ x < 256, ∀ row < 8, ∀ b < 8,
    multiplyGf (BitVec.ofNat 8 x) (MDS row b) =
      Spec.gmul 0x11D (BitVec.ofNat 8 x) (Spec.Kupyna.v.getD ((b + 8 - row) % 8) 0) := by
  have h1 : ∀ x < 256, ∀ y ∈ ([1, 4, 5, 6, 7, 8] : List Byte),
    multiplyGf (BitVec.ofNat 8 x) y = Spec.gmul 0x11D (BitVec.ofNat 8 x) y := by decide +kernel
  have h2 : ∀ row < 8, ∀ b < 8, MDS row b = Spec.Kupyna.v.getD ((b + 8 - row) % 8) 0 ∧
    MDS row b ∈ ([1, 4, 5, 6, 7, 8] : List Byte) := by decide +kernel
  intro x hx row hr b hb
  rw [← (h2 row hr b hb).1]
  exact h1 x hx _ (h2 row hr b hb).2

variable {g : Cfg} {p : Spec.Kupyna.Params}

/-- The constants of the code are those of the specification. -/
structure Match (g : Cfg) (p : Spec.Kupyna.Params) : Prop where
  cols : p.cols = g.cols
  rounds : p.rounds = g.rounds
  last : p.last = g.lastShift
  last_lt : g.lastShift < g.cols
  small : g.cols ≤ 16
  few : g.rounds ≤ 16
  ge : 8 ≤ g.cols
  even : g.cols % 2 = 0
  iv : mat (init g).state = Spec.Kupyna.iv p

theorem match_short : Match short Spec.Kupyna.p512 where
  cols := rfl
  rounds := rfl
  last := rfl
  last_lt := by decide
  small := by decide
  few := by decide
  ge := by decide
  even := by decide
  iv := by decide +kernel

theorem match_long : Match long Spec.Kupyna.p1024 where
  cols := rfl
  rounds := rfl
  last := rfl
  last_lt := by decide
  small := by decide
  few := by decide
  ge := by decide
  even := by decide
  iv := by decide +kernel

theorem mix_eq (M : Match g p) (a : Matrix) : mixColumns g.cols a = Spec.Kupyna.psi p a := by
  rw [mixColumns, Spec.Kupyna.psi, build_eq, M.cols]
  apply grid_congr
  intro j _ i hi
  have h : ∀ b, b < 8 → multiplyGf (at' a j b) (MDS i b) =
      Spec.gmul 0x11D (cell a j b) (Spec.Kupyna.v.getD ((b + 8 - i) % 8) 0) := fun b hb => by
    have := multiplyGf_eq (at' a j b).toNat (at' a j b).isLt i hi b hb
    rwa [BitVec.ofNat_toNat, BitVec.setWidth_eq] at this
  rw [Spec.xorSum, show List.range 8 = [0, 1, 2, 3, 4, 5, 6, 7] from rfl]
  simp only [List.foldl_cons, List.foldl_nil]
  rw [h 0 (by decide), h 1 (by decide), h 2 (by decide), h 3 (by decide), h 4 (by decide), h 5 (by decide),
    h 6 (by decide), h 7 (by decide)]

theorem sub_eq (M : Match g p) (a : Matrix) : applySBox g.cols a = Spec.Kupyna.sub p pi a := by
  rw [applySBox, Spec.Kupyna.sub, build_eq, M.cols]
  rfl

theorem xorConst : ∀ j < 16, ∀ r < 16, BitVec.ofNat 8 ((j * 0x10) ^^^ r) = BitVec.ofNat 8 (16 * j) ^^^ BitVec.ofNat 8 r := by
  decide +kernel

theorem kappa_eq (M : Match g p) (a : Matrix) (r : Nat) (hr : r < 16) :
    addConstantXor g.cols a r = Spec.Kupyna.kappa p r a := by
  rw [addConstantXor, Spec.Kupyna.kappa, build_eq, M.cols]
  apply grid_congr
  intro j hj i _
  rw [← xorConst j (Nat.lt_of_lt_of_le hj M.small) r hr]
  split
  · rfl
  · rw [show (0 : Byte) = 0#8 from rfl, BitVec.xor_zero]; rfl

theorem plusConst : ∀ k < 16, ∀ r < 16, ((0x00F0F0F0F0F0F0F3 : W64) ^^^ (BitVec.ofNat 64 ((k * 0x10) ^^^ r) <<< 56)).toNat =
    ofLE [0xF3, 0xF0, 0xF0, 0xF0, 0xF0, 0xF0, 0xF0, BitVec.ofNat 8 (16 * k) ^^^ BitVec.ofNat 8 r] := by
  decide +kernel

theorem eta_eq (M : Match g p) (a : Matrix) (r : Nat) (hr : r < 16) :
    addConstantPlus g.cols a r = Spec.Kupyna.eta p r a := by
  rw [addConstantPlus, Spec.Kupyna.eta, M.cols]
  apply List.map_congr_left
  intro j hj
  rw [List.mem_range] at hj
  have hk : g.cols - j - 1 < 16 := by have := M.small; omega
  rw [Spec.Kupyna.zeta, M.cols, show g.cols - 1 - j = g.cols - j - 1 by omega, ← plusConst _ hk r hr]
  apply leBytes_congr
  rw [BitVec.toNat_add, BitVec.toNat_ofNat]
  omega

/-- Writing `f c` at position `(c + s) % n` for all `c`. -/
theorem foldl_set_rot (n s m : Nat) (f : Nat → Byte) (t : Bytes) (ht : t.length = n) (hm : m ≤ n) :
    ((List.range m).foldl (fun t c => t.set ((c + s) % n) (f c)) t).length = n ∧
    ∀ c, c < m → ((List.range m).foldl (fun t c => t.set ((c + s) % n) (f c)) t).getD ((c + s) % n) 0 = f c := by
  induction m with
  | zero => exact ⟨ht, fun c hc => absurd hc (by omega)⟩
  | succ m ih =>
    obtain ⟨h1, h2⟩ := ih (by omega)
    rw [List.range_succ, List.foldl_append, List.foldl_cons, List.foldl_nil]
    generalize (List.range m).foldl _ t = u at h1 h2 ⊢
    refine ⟨by rw [List.length_set, h1], fun c hc => ?_⟩
    have hlt : (m + s) % n < n := Nat.mod_lt _ (by omega)
    rw [List.getD_eq_getElem?_getD, List.getElem?_set]
    by_cases e : c = m
    · subst e
      rw [if_pos rfl, if_pos (by omega)]; rfl
    · have : (m + s) % n ≠ (c + s) % n := by
        intro he
        have h3 := Nat.sub_mod_eq_zero_of_mod_eq he
        rw [show m + s - (c + s) = m - c by omega, Nat.mod_eq_of_lt (by omega)] at h3
        omega
      rw [if_neg this, ← List.getD_eq_getElem?_getD, h2 c (by omega)]

theorem foldl_set_rot' (n s : Nat) (f : Nat → Byte) (t : Bytes) (ht : t.length = n) (hs : s < n) {k : Nat} (hk : k < n) :
    ((List.range n).foldl (fun t c => t.set ((c + s) % n) (f c)) t).getD k 0 = f ((k + n - s) % n) := by
  have h := (foldl_set_rot n s n f t ht (Nat.le_refl _)).2 ((k + n - s) % n) (Nat.mod_lt _ (by omega))
  have e : ((k + n - s) % n + s) % n = k := by
    rw [Nat.mod_add_mod, show k + n - s + s = k + n by omega, Nat.add_mod_right, Nat.mod_eq_of_lt hk]
  rwa [e] at h

/-- The loop of `rotate_rows` after `m` passes. -/
theorem rotate_pass (M : Match g p) (a : Matrix) (m : Nat) (hm : m ≤ 8) (ha : a = grid g.cols 8 (cell a)) :
    let st := (List.range m).foldl (fun (st : Matrix × Bytes) i =>
      let shift := if i = 8 - 1 then g.lastShift else i
      let temp := (List.range g.cols).foldl (fun t col => t.set ((col + shift) % g.cols) (at' st.1 col i)) st.2
      (build g.cols fun col r => if r = i then temp.getD col 0 else at' st.1 col r, temp))
      (a, (List.replicate g.cols 0 : Bytes))
    st.1 = grid g.cols 8 (fun j i => if i < m then cell a ((j + p.cols - Spec.Kupyna.dist p i) % p.cols) i else cell a j i) ∧
    st.2.length = g.cols := by
  induction m with
  | zero =>
    simp only [List.range_zero, List.foldl_nil, Nat.not_lt_zero, if_false, List.length_replicate, and_true]
    exact ha
  | succ m ih =>
    obtain ⟨h1, h2⟩ := ih (by omega)
    simp only [List.range_succ, List.foldl_append, List.foldl_cons, List.foldl_nil]
    generalize (List.range m).foldl _ (a, (List.replicate g.cols 0 : Bytes)) = st at h1 h2 ⊢
    have hs : (if m = 8 - 1 then g.lastShift else m) = Spec.Kupyna.dist p m := by rw [Spec.Kupyna.dist, M.last]
    have hd : Spec.Kupyna.dist p m < g.cols := by
      rw [← hs]; have := M.last_lt; have := M.ge; split <;> omega
    rw [hs]
    refine ⟨?_, (foldl_set_rot g.cols _ g.cols _ st.2 h2 (Nat.le_refl _)).1⟩
    rw [build_eq]
    apply grid_congr
    intro j hj i hi
    rw [at'_eq, h1, cell_grid _ _ _ hj hi]
    by_cases e : i = m
    · subst e
      rw [if_pos rfl, if_pos (by omega), foldl_set_rot' _ _ _ _ h2 hd hj, at'_eq]
      rw [cell_grid _ _ _ (Nat.mod_lt _ (by omega)) hi, if_neg (by omega), M.cols]
    · rw [if_neg e]
      by_cases e2 : i < m
      · rw [if_pos e2, if_pos (by omega)]
      · rw [if_neg e2, if_neg (by omega)]

theorem tau_eq (M : Match g p) (a : Matrix) (ha : a = grid g.cols 8 (cell a)) : rotateRows g a = Spec.Kupyna.tau p a := by
  have h := (rotate_pass M a 8 (Nat.le_refl _) ha).1
  rw [rotateRows]
  refine Eq.trans h ?_
  rw [Spec.Kupyna.tau, M.cols]
  apply grid_congr
  intro j _ i hi
  rw [if_pos hi]

theorem grid_self (n m : Nat) (f : Nat → Nat → Byte) : grid n m f = grid n m (cell (grid n m f)) :=
  grid_congr fun a ha b hb => (cell_grid n m f ha hb).symm

theorem round_eq (M : Match g p) (a : Matrix) :
    mixColumns g.cols (rotateRows g (applySBox g.cols a)) = Spec.Kupyna.psi p (Spec.Kupyna.tau p (Spec.Kupyna.sub p pi a)) := by
  rw [mix_eq M, tau_eq M, sub_eq M]
  rw [applySBox, build_eq]; exact grid_self _ _ _

theorem foldl_congr_lt {α : Type} (f F : α → Nat → α) (N : Nat) (h : ∀ x r, r < N → f x r = F x r) (x : α) :
    (List.range N).foldl f x = (List.range N).foldl F x := by
  induction N with
  | zero => rfl
  | succ N ih =>
    rw [List.range_succ, List.foldl_append, List.foldl_append, List.foldl_cons, List.foldl_nil, List.foldl_cons,
      List.foldl_nil, h _ _ (by omega), ih fun x r hr => h x r (by omega)]

theorem blockToMatrix_eq (n : Nat) (b : Bytes) : blockToMatrix n b = gridOf n 8 b := by
  rw [blockToMatrix, build_eq, gridOf]
  apply grid_congr
  intro i _ j _
  rw [Nat.mul_comm]

theorem tXor_eq (M : Match g p) (b : Bytes) : tXor g b = (Spec.Kupyna.Txor p pi (gridOf g.cols 8 b)).flatten := by
  rw [tXor, matrixToBlock, blockToMatrix_eq, Spec.Kupyna.Txor, M.rounds]
  congr 1
  apply foldl_congr_lt
  intro x r hr
  rw [round_eq M, kappa_eq M _ _ (Nat.lt_of_lt_of_le hr M.few)]

theorem tPlus_eq (M : Match g p) (b : Bytes) : tPlus g b = (Spec.Kupyna.Tplus p pi (gridOf g.cols 8 b)).flatten := by
  rw [tPlus, matrixToBlock, blockToMatrix_eq, Spec.Kupyna.Tplus, M.rounds]
  congr 1
  apply foldl_congr_lt
  intro x r hr
  rw [round_eq M, eta_eq M _ _ (Nat.lt_of_lt_of_le hr M.few)]

/-! ### Bytes versus matrices -/

theorem length_flatten_grid (n : Nat) (f : Nat → Nat → Byte) : (grid n 8 f).flatten.length = 8 * n := by
  simp only [grid, List.length_flatten, List.map_map]
  rw [show (List.length ∘ fun a => List.map (fun b => f a b) (List.range 8)) = fun _ => 8 by
    funext a; simp only [Function.comp, List.length_map, List.length_range]]
  rw [List.map_const', List.sum_replicate_nat, List.length_range]; omega

theorem getD_flatten_grid (n : Nat) (f : Nat → Nat → Byte) {i j : Nat} (hi : i < n) (hj : j < 8) :
    (grid n 8 f).flatten.getD (8 * i + j) 0 = f i j := by
  induction n with
  | zero => omega
  | succ n ih =>
    have e : grid (n + 1) 8 f = grid n 8 f ++ [(List.range 8).map fun b => f n b] := by
      rw [grid, List.range_succ (n := n), List.map_append]; rfl
    rw [e, List.flatten_append, List.getD_eq_getElem?_getD]
    by_cases h : i < n
    · rw [List.getElem?_append_left (by rw [length_flatten_grid]; omega), ← List.getD_eq_getElem?_getD, ih h]
    · have : i = n := by omega
      subst this
      rw [List.getElem?_append_right (by rw [length_flatten_grid]; omega), length_flatten_grid,
        show 8 * i + j - 8 * i = j by omega, ← List.getD_eq_getElem?_getD]
      simp only [List.flatten_cons, List.flatten_nil, List.append_nil]
      exact getD_map_range _ _ _ hj

theorem gridOf_flatten (n : Nat) (f : Nat → Nat → Byte) : gridOf n 8 (grid n 8 f).flatten = grid n 8 f := by
  rw [gridOf]
  exact grid_congr fun i hi j hj => getD_flatten_grid n f hi hj

/-- A grid of the right shape is determined by its bytes. -/
def Shaped (n : Nat) (a : Spec.Grid) : Prop := ∃ f, a = grid n 8 f

theorem Shaped.gridOf {n : Nat} {a : Spec.Grid} (h : Shaped n a) : gridOf n 8 a.flatten = a := by
  obtain ⟨f, rfl⟩ := h; exact gridOf_flatten n f

theorem Shaped.length {n : Nat} {a : Spec.Grid} (h : Shaped n a) : a.flatten.length = 8 * n := by
  obtain ⟨f, rfl⟩ := h; exact length_flatten_grid n f

theorem shaped_fold (M : Match g p) (F : Spec.Grid → Nat → Spec.Grid) (N : Nat) (a : Spec.Grid) (ha : Shaped g.cols a) :
    Shaped g.cols ((List.range N).foldl (fun a r => Spec.Kupyna.psi p (Spec.Kupyna.tau p (Spec.Kupyna.sub p pi (F a r)))) a) := by
  cases N with
  | zero => exact ha
  | succ N =>
    rw [List.range_succ, List.foldl_append, List.foldl_cons, List.foldl_nil]
    exact ⟨_, by rw [Spec.Kupyna.psi, M.cols]⟩

theorem shaped_Txor (M : Match g p) {a : Spec.Grid} (ha : Shaped g.cols a) : Shaped g.cols (Spec.Kupyna.Txor p pi a) :=
  shaped_fold M (fun a r => Spec.Kupyna.kappa p r a) _ a ha

theorem shaped_Tplus (M : Match g p) {a : Spec.Grid} (ha : Shaped g.cols a) : Shaped g.cols (Spec.Kupyna.Tplus p pi a) :=
  shaped_fold M (fun a r => Spec.Kupyna.eta p r a) _ a ha

theorem gridOf_xor (n : Nat) (a b : Bytes) (ha : a.length = 8 * n) (hb : b.length = 8 * n) :
    gridOf n 8 (xorBytes a b) = gridXor n 8 (gridOf n 8 a) (gridOf n 8 b) := by
  rw [gridXor, gridOf]
  apply grid_congr
  intro i hi j hj
  have h1 : 8 * i + j < a.length := by omega
  have h2 : 8 * i + j < b.length := by omega
  rw [gridOf, gridOf, cell_grid _ _ _ hi hj, cell_grid _ _ _ hi hj, xorBytes]
  simp only [List.getD_eq_getElem?_getD, List.getElem?_zipWith, List.getElem?_eq_getElem h1, List.getElem?_eq_getElem h2,
    Option.getD_some]

theorem length_xorBytes {n : Nat} (a b : Bytes) (ha : a.length = n) (hb : b.length = n) : (xorBytes a b).length = n := by
  simp [xorBytes, ha, hb]

theorem gridOf_words {n : Nat} (s : Arr 64 n) : gridOf n 8 (bytesOfWordsBE s.toList) = mat s := by
  rw [← flatten_mat]; exact Shaped.gridOf ⟨_, rfl⟩

theorem length_words {n : Nat} (s : Arr 64 n) : (bytesOfWordsBE s.toList).length = 8 * n := by
  rw [length_bytesOfWordsBE]; simp; omega

theorem gridXor_comm (n : Nat) (a b : Spec.Grid) : gridXor n 8 a b = gridXor n 8 b a :=
  grid_congr fun i _ j _ => BitVec.xor_comm _ _

theorem compress_eq (M : Match g p) (s : Arr 64 g.cols) (b : Bytes) (hb : b.length = 8 * g.cols) :
    mat (compress g s b) = Spec.Kupyna.step p pi (mat s) b := by
  have hs := length_words s
  have h1 : Shaped g.cols (Spec.Kupyna.Txor p pi (gridXor g.cols 8 (mat s) (gridOf g.cols 8 b))) := shaped_Txor M ⟨_, rfl⟩
  have h2 : Shaped g.cols (Spec.Kupyna.Tplus p pi (gridOf g.cols 8 b)) := shaped_Tplus M ⟨_, rfl⟩
  rw [compress, tXor_eq M, tPlus_eq M, gridOf_xor _ _ _ hb hs, gridXor_comm, gridOf_words]
  rw [mat_words _ (length_xorBytes _ _ (length_xorBytes _ _ h1.length h2.length) hs)]
  rw [gridOf_xor _ _ _ (length_xorBytes _ _ h1.length h2.length) hs, gridOf_xor _ _ _ h1.length h2.length,
    h1.gridOf, h2.gridOf, gridOf_words, Spec.Kupyna.step, M.cols]

theorem foldl_compress (M : Match g p) (l : List Bytes) (hl : ∀ b ∈ l, b.length = 8 * g.cols) (s : Arr 64 g.cols) :
    mat (l.foldl (compress g) s) = l.foldl (Spec.Kupyna.step p pi) (mat s) := by
  induction l generalizing s with
  | nil => rfl
  | cons x l ih =>
    rw [List.foldl_cons, List.foldl_cons, ih (fun b hb => hl b (List.mem_cons_of_mem _ hb)),
      compress_eq M _ _ (hl x List.mem_cons_self)]

/-! ### Interface laws -/

theorem lawful (hg : 8 ≤ g.cols) : (varCore g).Lawful where
  bs_pos := by simp only [varCore]; omega
  nil := fun s => by simp [varCore, updateBlocks]
  app := fun s x y => by simp [varCore, updateBlocks, BitVec.ofNat_add, BitVec.add_assoc]
  fin_congr := fun s b b' h h' hc => by
    simp only [varCore, finalizeFull] at h h' ⊢
    rw [pos_congr h h' hc, digestPad_congr (bs := 8 * g.cols) h h' hc (by simp; omega)]

theorem serLawful (hg : g.cols ≤ 31) : (varCore g).SerLawful where
  bs_le := by simp only [varCore]; omega
  len := fun s => by simp [varCore, serialize, length_bytesOfWordsLE]; omega
  round := fun s => by
    simp only [varCore, serialize, deserialize]
    have hl : (bytesOfWordsLE s.state.toList).length = 8 * g.cols := by simp [length_bytesOfWordsLE]; omega
    rw [if_pos (by simp [hl])]
    rw [List.drop_left' hl, counter_round (by decide)]
    congr 1
    ext1
    · conv => rhs; rw [← Arr.ofFn_get s.state]
      exact Arr.ofFn_congr fun i hi => wordLE_append (by decide) _ _ _ (by simpa using hi)
    · rfl
  canon := fun raw s h => by
    simp only [varCore, deserialize, serialize] at h ⊢
    split at h
    · rename_i hl
      injection h with h
      subst h
      have : (Arr.ofFn g.cols (wordLE 64 raw)).toList = (List.range g.cols).map (wordLE 64 raw) := rfl
      rw [this, bytesOfWordsLE_range (by decide) _ _ (by omega), counter_canon (by decide) (by simp [hl]),
        show g.cols * (64 / 8) = 8 * g.cols by omega]
      simp
    · cases h

theorem length_field (bs L : Nat) (hb : bs ≤ 128) (hL : L / bs < 2 ^ 64) (h0 : 0 < bs) :
    (leBytes 16 ((8 : W128) * (BitVec.ofNat 128 ((0 : W64) + BitVec.ofNat 64 (L / bs)).toNat * BitVec.ofNat 128 bs +
      BitVec.ofNat 128 (L % bs))).toNat).take 12 = leBytes 12 (8 * L) := by
  rw [show (0 : W64) = 0#64 from rfl, BitVec.zero_add, BitVec.toNat_ofNat, Nat.mod_eq_of_lt hL,
    show (8 : W128) = BitVec.ofNat 128 8 from rfl, ← BitVec.ofNat_mul, ← BitVec.ofNat_add, ← BitVec.ofNat_mul,
    leBytes_counter (by decide), Nat.mul_comm (L / bs), Nat.div_add_mod]
  rw [show (16 : Nat) = 12 + 4 from rfl, leBytes_append, List.take_left' (by simp)]

theorem digest_eq (M : Match g p) {N : Nat} (hN : N ≤ 4 * g.cols) (m : Bytes) (hm : m.length / (8 * g.cols) < 2 ^ 64) :
    ((varCore g).ctWith N (init g)).digest m = Spec.Kupyna.hash p pi N m := by
  have hp := M.ge
  have he := M.even
  obtain ⟨b, h1, h2, h3, h4⟩ := Core.digest_eager ((lawful M.ge).ct N (init g)) rfl m
  rw [h4]
  simp only [varCore, VarCore.ctWith] at h1 h2 h3 ⊢
  have hs : (leBytes 12 (8 * m.length)).length ≤ 8 * g.cols := by simp; omega
  have e := md_finalize (bs := 8 * g.cols) (by omega) h1 (delim := 0x80) hs (compress g) (init g).state m h2
  rw [show nFull .eager (8 * g.cols) m.length = m.length / (8 * g.cols) from rfl] at e
  have hf := length_field (8 * g.cols) m.length (by have := M.small; omega) hm (by omega)
  simp only [finalizeFull, updateBlocks, h3, length_blocks]
  rw [show (init g).blocksLen = 0 from rfl, hf, e]
  generalize hst : (chunks (8 * g.cols) (Spec.mdPad (8 * g.cols) 0x80 (leBytes 12 (8 * m.length)) m)).foldl
    (compress g) (init g).state = st
  have hst2 : mat st = (chunks (8 * g.cols) (Spec.mdPad (8 * g.cols) 0x80 (leBytes 12 (8 * m.length)) m)).foldl
    (Spec.Kupyna.step p pi) (Spec.Kupyna.iv p) := by
    rw [← hst, foldl_compress M _ (fun b hb => length_of_mem_chunks hb), M.iv]
  have hT : Shaped g.cols (Spec.Kupyna.Txor p pi (mat st)) := shaped_Txor M ⟨_, rfl⟩
  rw [bytesOfWordsBE_drop, ← flatten_mat, tXor_eq M, gridOf_words,
    mat_words _ (length_xorBytes _ _ (length_words st) hT.length), gridOf_xor _ _ _ (length_words st) hT.length,
    gridOf_words, hT.gridOf, gridXor_comm, hst2, Spec.Kupyna.hash, Spec.Kupyna.pad, M.cols]
  simp only [truncate]
  rw [List.length_drop, List.drop_drop, gridXor, length_flatten_grid]
  congr 1
  omega

end Kupyna
end Hashes
