import Verif.Model.Groestl
import Verif.Spec.Groestl
import Verif.Proof.Md
import Verif.Proof.Grid
/- Helper lemmas: the modelled Groestl equals its specification. -/
namespace Hashes

theorem beBytes_word {w : Nat} (n : Nat) (x : BitVec w) :
    beBytes n x.toNat = (List.range n).map fun j => byteAt x (n - 1 - j) := by
  rw [beBytes, leBytes_word]
  apply List.ext_getElem
  · simp
  · intro i h1 h2
    simp

theorem byteAt_wordBE (raw : Bytes) (i j : Nat) (hj : j < 8) (hr : 8 * i + 8 ≤ raw.length) :
    byteAt (wordBE 64 raw i) (7 - j) = raw.getD (8 * i + j) 0 := by
  have hl : ((raw.drop (64 / 8 * i)).take (64 / 8)).length = 8 := by simp; omega
  have h2 : beBytes 8 (wordBE 64 raw i).toNat = (raw.drop (64 / 8 * i)).take (64 / 8) := by
    rw [wordBE, beBytes_counter (by decide), beBytes_ofBE' hl]
  rw [beBytes_word] at h2
  have h3 := congrArg (fun l => l.getD j 0) h2
  simp only [getD_map_range _ _ _ hj] at h3
  rw [show 7 - j = 8 - 1 - j from rfl, h3]
  simp only [List.getD_eq_getElem?_getD]
  rw [List.getElem?_take_of_lt hj, List.getElem?_drop]

namespace Groestl
open Spec (cell grid gridXor gridOf)

/-! ### Tables -/

/-- The products of the first row of the circulant with the S-box value. -/
def row (x : Nat) : List Byte := Spec.Groestl.B.map fun a => Spec.gmul 0x11B a (Spec.Aes.sbox (BitVec.ofNat 8 x))

set_option maxRecDepth 10000 in
theorem tab0_eq : tabNat0 =
    (List.range 256).map fun x => ofBE ((List.range 8).map fun r => (row x).getD ((8 - r) % 8) 0) := by
  decide +kernel

set_option maxRecDepth 10000 in
/-- The other tables are byte rotations of the first. -/
theorem rot_eq : [tabNat0, tabNat1, tabNat2, tabNat3, tabNat4, tabNat5, tabNat6, tabNat7] =
    (List.range 8).map fun i => tabNat0.map fun w =>
      ofBE ((List.range 8).map fun r => BitVec.ofNat 8 (Nat.shiftRight w (8 * (7 - (r + 8 - i) % 8)))) := by
  decide +kernel

theorem tabs_eq : [tabNat0, tabNat1, tabNat2, tabNat3, tabNat4, tabNat5, tabNat6, tabNat7] =
    (List.range 8).map fun i => (List.range 256).map fun x =>
      ofBE ((List.range 8).map fun r => (row x).getD ((i + 8 - r) % 8) 0) := by
  rw [rot_eq]
  apply List.map_congr_left
  intro i hi
  rw [List.mem_range] at hi
  rw [tab0_eq, List.map_map]
  apply List.map_congr_left
  intro x _
  simp only [Function.comp]
  congr 1
  apply List.map_congr_left
  intro r hr
  rw [List.mem_range] at hr
  have hk : (r + 8 - i) % 8 < 8 := Nat.mod_lt _ (by decide)
  have e := byteAt_packBE (fun r => (row x).getD ((8 - r) % 8) 0) hk
  rw [← ofNat_byteAt, BitVec.toNat_ofNat, Nat.mod_eq_of_lt] at e
  · rw [show ∀ a b, Nat.shiftRight a b = a >>> b from fun _ _ => rfl, Nat.shiftRight_eq_div_pow, e]
    congr 1
    omega
  · have := ofBE_lt ((List.range 8).map fun r => (row x).getD ((8 - r) % 8) 0)
    rw [List.length_map, List.length_range] at this
    exact this

theorem tables (i : Nat) (hi : i < 8) (x : Nat) (hx : x < 256) (r : Nat) (hr : r < 8) :
    byteAt ((TABLE.getD i []).getD x 0) (7 - r) =
    Spec.gmul 0x11B (Spec.Groestl.B.getD ((i + 8 - r) % 8) 0) (Spec.Aes.sbox (BitVec.ofNat 8 x)) := by
  rw [TABLE, tabs_eq, List.map_map, getD_map_range _ _ _ hi]
  simp only [Function.comp, List.map_map]
  rw [getD_map_range _ _ _ hx]
  simp only [Function.comp]
  rw [byteAt_packBE _ hr]
  have : (i + 8 - r) % 8 < 8 := Nat.mod_lt _ (by decide)
  generalize (i + 8 - r) % 8 = i at this
  match i, this with
  | 0, _ | 1, _ | 2, _ | 3, _ | 4, _ | 5, _ | 6, _ | 7, _ => rfl

/-! ### Permutations -/
variable {n : Nat}

/-- The state as a matrix: word `j` is column `j`, most significant byte first. -/
def mat (s : Arr 64 n) : Spec.Grid := gridBE n s.get

theorem cell_mat (s : Arr 64 n) {i j : Nat} (hi : i < n) (hj : j < 8) : cell (mat s) i j = byteAt (s.get i) (7 - j) :=
  cell_grid _ _ _ hi hj

theorem byteAt_column (x : Arr 64 n) (c : List Nat) (r : Nat) (hr : r < 8) :
    byteAt (column x c) (7 - r) = Spec.xorSum 8 fun k =>
      Spec.gmul 0x11B (Spec.Groestl.B.getD ((k + 8 - r) % 8) 0) (Spec.Aes.sbox (byteAt (x.get (c.getD k 0)) (7 - k))) := by
  have h : ∀ i, i < 8 → byteAt ((TABLE.getD i []).getD ((x.get (c.getD i 0) >>> (8 * (7 - i))) &&& 0xFF).toNat 0) (7 - r) =
      Spec.gmul 0x11B (Spec.Groestl.B.getD ((i + 8 - r) % 8) 0)
        (Spec.Aes.sbox (byteAt (x.get (c.getD i 0)) (7 - i))) := fun i hi => by
    rw [toNat_shift_and, tables i hi _ (byteAt _ _).isLt r hr, BitVec.ofNat_toNat, BitVec.setWidth_eq]
  rw [xorSum8, column]
  rw [show List.range 8 = [0, 1, 2, 3, 4, 5, 6, 7] from rfl]
  simp only [List.foldl_cons, List.foldl_nil, byteAt_xor]
  rw [h 0 (by decide), h 1 (by decide), h 2 (by decide), h 3 (by decide), h 4 (by decide), h 5 (by decide),
    h 6 (by decide), h 7 (by decide), byteAt_zero]
  simp

/-- The constants of the code are those of the specification. -/
structure Match (g : Cfg) (p : Spec.Groestl.Params) : Prop where
  cols : p.cols = g.cols
  rounds : p.rounds = g.rounds
  idxP : ∀ j < g.cols, ∀ i < 8, (g.idxP.getD j []).getD i 0 = (j + p.shiftP.getD i 0) % g.cols
  idxQ : ∀ j < g.cols, ∀ i < 8, (g.idxQ.getD j []).getD i 0 = (j + p.shiftQ.getD i 0) % g.cols
  small : g.cols ≤ 16
  few : g.rounds ≤ 16
  pos : 0 < g.cols

theorem match_short : Match short Spec.Groestl.p512 where
  cols := rfl
  rounds := rfl
  idxP := by decide
  idxQ := by decide
  small := by decide
  few := by decide
  pos := by decide

theorem match_long : Match long Spec.Groestl.p1024 where
  cols := rfl
  rounds := rfl
  idxP := by decide
  idxQ := by decide
  small := by decide
  few := by decide
  pos := by decide

theorem constQ : ∀ j < 16, ∀ r < 16, ∀ i < 8,
    byteAt (((0xFFFFFFFFFFFFFFFF : W64) - (BitVec.ofNat 64 j <<< 4)) ^^^ BitVec.ofNat 64 r) (7 - i) =
      if i = 7 then 0xff ^^^ BitVec.ofNat 8 (16 * j) ^^^ BitVec.ofNat 8 r else 0xff := by decide +kernel

theorem constP : ∀ j < 16, ∀ r < 16, ∀ i < 8,
    byteAt ((BitVec.ofNat 64 j <<< 60) ^^^ (BitVec.ofNat 64 r <<< 56)) (7 - i) =
      if i = 0 then BitVec.ofNat 8 (16 * j) ^^^ BitVec.ofNat 8 r else 0 := by decide +kernel

theorem mat_mix (p : Spec.Groestl.Params) (hp : p.cols = n) (x : Arr 64 n) (idx : List (List Nat)) (σ : List Nat)
    (hn : 0 < n) (h : ∀ j < n, ∀ i < 8, (idx.getD j []).getD i 0 = (j + σ.getD i 0) % n) :
    mat (Arr.ofFn n fun j => column x (idx.getD j [])) =
      Spec.Groestl.mixBytes p (Spec.Groestl.shiftBytes p σ (Spec.Groestl.subBytes p (mat x))) := by
  rw [Spec.Groestl.mixBytes, mat, gridBE, hp]
  apply grid_congr
  intro j hj i hi
  rw [Arr.get_ofFn _ hj, byteAt_column _ _ _ hi]
  have e : ∀ k, k < 8 → cell (Spec.Groestl.shiftBytes p σ (Spec.Groestl.subBytes p (mat x))) j k =
      Spec.Aes.sbox (byteAt (x.get ((idx.getD j []).getD k 0)) (7 - k)) := fun k hk => by
    have hm : (j + σ.getD k 0) % n < n := Nat.mod_lt _ hn
    rw [Spec.Groestl.shiftBytes, hp, cell_grid _ _ _ hj hk, Spec.Groestl.subBytes, hp, cell_grid _ _ _ hm hk,
      cell_mat _ hm hk, h j hj k hk]
  rw [xorSum8, xorSum8, e 0 (by decide), e 1 (by decide), e 2 (by decide), e 3 (by decide), e 4 (by decide),
    e 5 (by decide), e 6 (by decide), e 7 (by decide)]

variable {g : Cfg} {p : Spec.Groestl.Params}

theorem mat_rndq (M : Match g p) (x : Arr 64 g.cols) (r : Nat) (hr : r < 16) :
    mat (rndq g x (BitVec.ofNat 64 r)) =
      Spec.Groestl.mixBytes p (Spec.Groestl.shiftBytes p p.shiftQ (Spec.Groestl.subBytes p (Spec.Groestl.addQ p r (mat x)))) := by
  rw [rndq]
  rw [mat_mix p M.cols _ g.idxQ p.shiftQ M.pos M.idxQ]
  congr 3
  rw [Spec.Groestl.addQ, M.cols, mat, gridBE]
  apply grid_congr
  intro j hj i hi
  rw [Arr.get_ofFn _ hj, byteAt_xor, constQ j (Nat.lt_of_lt_of_le hj M.small) r hr i hi, cell_mat _ hj hi]

theorem mat_rndp (M : Match g p) (x : Arr 64 g.cols) (r : Nat) (hr : r < 16) :
    mat (rndp g x (BitVec.ofNat 64 r <<< 56)) =
      Spec.Groestl.mixBytes p (Spec.Groestl.shiftBytes p p.shiftP (Spec.Groestl.subBytes p (Spec.Groestl.addP p r (mat x)))) := by
  rw [rndp]
  rw [mat_mix p M.cols _ g.idxP p.shiftP M.pos M.idxP]
  congr 3
  rw [Spec.Groestl.addP, M.cols, mat, gridBE]
  apply grid_congr
  intro j hj i hi
  rw [Arr.get_ofFn _ hj, byteAt_xor, constP j (Nat.lt_of_lt_of_le hj M.small) r hr i hi, cell_mat _ hj hi]

theorem foldl_mat (f : Arr 64 n → Nat → Arr 64 n) (F : Spec.Grid → Nat → Spec.Grid) (N : Nat)
    (h : ∀ x r, r < N → mat (f x r) = F (mat x) r) (x : Arr 64 n) :
    mat ((List.range N).foldl f x) = (List.range N).foldl F (mat x) := by
  induction N with
  | zero => rfl
  | succ N ih =>
    rw [List.range_succ, List.foldl_append, List.foldl_append, List.foldl_cons, List.foldl_nil, List.foldl_cons,
      List.foldl_nil, h _ _ (by omega), ih fun x r hr => h x r (by omega)]

theorem mat_permQ (M : Match g p) (x : Arr 64 g.cols) : mat (permQ g x) = Spec.Groestl.permQ p (mat x) := by
  rw [Spec.Groestl.permQ, permQ, M.rounds]
  exact foldl_mat _ _ _ (fun x r hr => mat_rndq M x r (Nat.lt_of_lt_of_le hr M.few)) x

theorem mat_permP (M : Match g p) (x : Arr 64 g.cols) : mat (permP g x) = Spec.Groestl.permP p (mat x) := by
  rw [Spec.Groestl.permP, permP, M.rounds]
  exact foldl_mat _ _ _ (fun x r hr => mat_rndp M x r (Nat.lt_of_lt_of_le hr M.few)) x

theorem mat_xor (x y : Arr 64 n) : mat (Arr.ofFn n fun i => x.get i ^^^ y.get i) = gridXor n 8 (mat x) (mat y) := by
  rw [gridXor, mat, gridBE]
  apply grid_congr
  intro i hi j hj
  rw [Arr.get_ofFn _ hi, byteAt_xor, cell_mat _ hi hj, cell_mat _ hi hj]

theorem mat_words (b : Bytes) (hb : b.length = 8 * n) : mat (Arr.ofFn n (wordBE 64 b)) = gridOf n 8 b := by
  rw [gridOf, mat, gridBE]
  apply grid_congr
  intro i hi j hj
  rw [Arr.get_ofFn _ hi, byteAt_wordBE _ _ _ hj (by omega)]

theorem compress_eq (M : Match g p) (h : Arr 64 g.cols) (b : Bytes) (hb : b.length = 8 * g.cols) :
    mat (compress g h b) = Spec.Groestl.f p (mat h) b := by
  rw [Spec.Groestl.f, M.cols, ← mat_words b hb]
  rw [← mat_xor, ← mat_permP M, ← mat_permQ M, ← mat_xor, ← mat_xor, compress]
  congr 1
  apply Arr.ofFn_congr
  intro i hi
  rw [Arr.get_ofFn _ hi]
  ac_rfl

theorem foldl_compress (M : Match g p) (l : List Bytes) (hl : ∀ b ∈ l, b.length = 8 * g.cols) (s : Arr 64 g.cols) :
    mat (l.foldl (compress g) s) = l.foldl (Spec.Groestl.f p) (mat s) := by
  induction l generalizing s with
  | nil => rfl
  | cons x l ih =>
    rw [List.foldl_cons, List.foldl_cons, ih (fun b hb => hl b (List.mem_cons_of_mem _ hb)),
      compress_eq M _ _ (hl x List.mem_cons_self)]

theorem flatten_mat (s : Arr 64 n) : (mat s).flatten = bytesOfWordsBE s.toList := by
  have h : ∀ x : W64, beBytes (64 / 8) x.toNat = (List.range 8).map fun j => byteAt x (7 - j) := fun x => beBytes_word 8 x
  conv => rhs; rw [← Arr.ofFn_get s]
  simp only [bytesOfWordsBE, h, Arr.toList, Arr.ofFn, mat, gridBE, grid, List.flatMap, List.map_map]
  rfl

/-! ### Interface laws -/

theorem lawful (hg : 0 < g.cols) : (varCore g).Lawful where
  bs_pos := by simp only [varCore]; omega
  nil := fun s => by simp [varCore, updateBlocks]
  app := fun s x y => by simp [varCore, updateBlocks, BitVec.ofNat_add, BitVec.add_assoc]
  fin_congr := fun s b b' h h' hc => by
    simp only [varCore, finalizeFull, BlockBuffer.len64PaddingBE] at h h' ⊢
    rw [pos_congr h h' hc, digestPad_congr (bs := 8 * g.cols) h h' hc (by simp; omega)]

theorem serLawful (hg : g.cols ≤ 31) : (varCore g).SerLawful where
  bs_le := by simp only [varCore]; omega
  len := fun s => by simp [varCore, serialize, length_bytesOfWordsLE]; omega
  round := fun s => by
    simp only [varCore, serialize, deserialize]
    have hl : (bytesOfWordsLE s.state.toList).length = 8 * g.cols := by simp [length_bytesOfWordsLE]; omega
    rw [if_pos (by simp [hl])]
    rw [List.drop_left' hl, counter_round (by decide)]
    congr 1
    ext1
    · conv => rhs; rw [← Arr.ofFn_get s.state]
      exact Arr.ofFn_congr fun i hi => wordLE_append (by decide) _ _ _ (by simpa using hi)
    · rfl
  canon := fun raw s h => by
    simp only [varCore, deserialize, serialize] at h ⊢
    split at h
    · rename_i hl
      injection h with h
      subst h
      have : (Arr.ofFn g.cols (wordLE 64 raw)).toList = (List.range g.cols).map (wordLE 64 raw) := rfl
      rw [this, bytesOfWordsLE_range (by decide) _ _ (by omega), counter_canon (by decide) (by simp [hl]),
        show g.cols * (64 / 8) = 8 * g.cols by omega]
      simp
    · cases h

theorem count64 (L : Nat) :
    (if 64 - L % 64 ≤ 8 then (0 + BitVec.ofNat 64 (L / 64)) + 2 else (0 + BitVec.ofNat 64 (L / 64)) + 1 : W64) =
      BitVec.ofNat 64 ((L + 1 + Spec.zeroFill 64 (L + 1 + 8) + 8) / 64) := by
  rw [show (0 : W64) = 0#64 from rfl, BitVec.zero_add, show (2 : W64) = BitVec.ofNat 64 2 from rfl, show (1 : W64) = BitVec.ofNat 64 1 from rfl,
    ← BitVec.ofNat_add, ← BitVec.ofNat_add, Spec.zeroFill]
  split
  · rw [show (L + 1 + (64 - (L + 1 + 8) % 64) % 64 + 8) / 64 = L / 64 + 2 by omega]
  · rw [show (L + 1 + (64 - (L + 1 + 8) % 64) % 64 + 8) / 64 = L / 64 + 1 by omega]

theorem count128 (L : Nat) :
    (if 128 - L % 128 ≤ 8 then (0 + BitVec.ofNat 64 (L / 128)) + 2 else (0 + BitVec.ofNat 64 (L / 128)) + 1 : W64) =
      BitVec.ofNat 64 ((L + 1 + Spec.zeroFill 128 (L + 1 + 8) + 8) / 128) := by
  rw [show (0 : W64) = 0#64 from rfl, BitVec.zero_add, show (2 : W64) = BitVec.ofNat 64 2 from rfl, show (1 : W64) = BitVec.ofNat 64 1 from rfl,
    ← BitVec.ofNat_add, ← BitVec.ofNat_add, Spec.zeroFill]
  split
  · rw [show (L + 1 + (128 - (L + 1 + 8) % 128) % 128 + 8) / 128 = L / 128 + 2 by omega]
  · rw [show (L + 1 + (128 - (L + 1 + 8) % 128) % 128 + 8) / 128 = L / 128 + 1 by omega]

/-- Initial state for an output size. -/
def init (g : Cfg) (outputSize : Nat) : Arr 64 g.cols :=
  Arr.ofFn g.cols fun i => if i = g.cols - 1 then BitVec.ofNat 64 (8 * outputSize) else 0

theorem getD_beBytes (n x k : Nat) (hk : k < n) : (beBytes n x).getD k 0 = BitVec.ofNat 8 (x / 2 ^ (8 * (n - 1 - k))) := by
  rw [beBytes, leBytes_eq_map]
  simp [List.getD_eq_getElem?_getD, hk]

theorem iv_eq (M : Match g p) (N : Nat) (hN : N < 2 ^ 61) : mat (init g N) = Spec.Groestl.iv p N := by
  rw [Spec.Groestl.iv, gridOf, mat, gridBE, M.cols]
  apply grid_congr
  intro i hi j hj
  rw [getD_beBytes _ _ _ (by omega), init, Arr.get_ofFn _ hi]
  by_cases h : i = g.cols - 1
  · rw [if_pos h, ← ofNat_byteAt, BitVec.toNat_ofNat, Nat.mod_eq_of_lt (by omega),
      show 8 * g.cols - 1 - (8 * i + j) = 7 - j by omega]
  · rw [if_neg h, byteAt_zero]
    rw [Nat.div_eq_of_lt]
    · rfl
    · calc 8 * N < 2 ^ 64 := by omega
        _ ≤ 2 ^ (8 * (8 * g.cols - 1 - (8 * i + j))) := Nat.pow_le_pow_right (by decide) (by omega)

theorem bytesOfWordsBE_drop {w : Nat} (l : List (BitVec w)) (k : Nat) :
    bytesOfWordsBE (l.drop k) = (bytesOfWordsBE l).drop (k * (w / 8)) := by
  induction k generalizing l with
  | zero => simp
  | succ k ih =>
    cases l with
    | nil => simp [bytesOfWordsBE]
    | cons x l =>
      rw [List.drop_succ_cons, ih, bytesOfWordsBE_cons, Nat.add_mul, Nat.one_mul, Nat.add_comm, ← List.drop_drop,
        List.drop_left' (by simp)]

theorem digest_eq (M : Match g p) (he : g.cols % 2 = 0) {N : Nat} (hN : N ≤ 4 * g.cols)
    (hcount : ∀ L : Nat, (if 8 * g.cols - L % (8 * g.cols) ≤ 8 then (0 + BitVec.ofNat 64 (L / (8 * g.cols))) + 2
        else (0 + BitVec.ofNat 64 (L / (8 * g.cols))) + 1 : W64) =
      BitVec.ofNat 64 ((L + 1 + Spec.zeroFill (8 * g.cols) (L + 1 + 8) + 8) / (8 * g.cols))) (m : Bytes) :
    ((varCore g).ctWith N ⟨init g N, 0⟩).digest m = Spec.Groestl.hash p N m := by
  have hp := M.pos
  obtain ⟨b, h1, h2, h3, h4⟩ := Core.digest_eager ((lawful M.pos).ct N ⟨init g N, 0⟩) rfl m
  rw [h4]
  simp only [varCore, VarCore.ctWith] at h1 h2 h3 ⊢
  have hs : (beBytes 8 ((m.length + 1 + Spec.zeroFill (8 * g.cols) (m.length + 1 + 8) + 8) / (8 * g.cols))).length ≤
    8 * g.cols := by simp; omega
  have e := md_finalize (bs := 8 * g.cols) (by omega) h1 (delim := 0x80) hs (compress g) (init g N) m h2
  rw [show nFull .eager (8 * g.cols) m.length = m.length / (8 * g.cols) from rfl] at e
  simp only [finalizeFull, updateBlocks, h3, length_blocks, BlockBuffer.len64PaddingBE, hcount]
  rw [beBytes_counter (by decide), e, bytesOfWordsBE_drop, pFinal]
  rw [← flatten_mat, mat_xor, mat_permP M, foldl_compress M _ (fun b hb => length_of_mem_chunks hb), iv_eq M N (by have := M.small; omega),
    Spec.Groestl.hash, M.cols, Spec.Groestl.pad, M.cols]
  simp only [truncate]
  have hlen : ∀ f, (grid g.cols 8 f).flatten.length = 8 * g.cols := fun f => by
    simp only [grid, List.length_flatten, List.map_map]
    rw [show (List.length ∘ fun a => List.map (fun b => f a b) (List.range 8)) = fun _ => 8 by
      funext a; simp only [Function.comp, List.length_map, List.length_range]]
    rw [List.map_const', List.sum_replicate_nat, List.length_range]; omega
  rw [List.length_drop, List.drop_drop, gridXor, hlen]
  congr 1
  omega

end Groestl
end Hashes
