import Verif.Proof.Perm.Linear
import Verif.Proof.Kupyna
/- Helpers for C62: the layers of Whirlpool, Streebog, Groestl and Kupyna are injective on matrices of the right shape. -/
namespace Hashes.Perm
open Function Spec
open Kupyna (Shaped)

/-- `F` maps `n × 8` grids to `n × 8` grids, different ones to different ones. -/
def GInj (n : Nat) (F : Grid → Grid) : Prop :=
  (∀ a, Shaped n a → Shaped n (F a)) ∧ ∀ a b, Shaped n a → Shaped n b → F a = F b → a = b

theorem GInj.comp {n : Nat} {F G : Grid → Grid} (hF : GInj n F) (hG : GInj n G) : GInj n (fun a => F (G a)) :=
  ⟨fun a ha => hF.1 _ (hG.1 a ha), fun a b ha hb h => hG.2 a b ha hb (hF.2 _ _ (hG.1 a ha) (hG.1 b hb) h)⟩

theorem GInj.foldl {n : Nat} {ι : Type} {F : Grid → ι → Grid} (l : List ι) (h : ∀ i ∈ l, GInj n fun a => F a i) :
    GInj n fun a => l.foldl F a := by
  induction l with
  | nil => exact ⟨fun _ h => h, fun _ _ _ _ h => h⟩
  | cons i l ih =>
    exact (ih fun j hj => h j (List.mem_cons_of_mem _ hj)).comp (h i List.mem_cons_self)

theorem grid_cells {n m : Nat} {f g : Nat → Nat → Byte} (h : grid n m f = grid n m g) {i j : Nat} (hi : i < n) (hj : j < m) :
    f i j = g i j := by
  rw [← cell_grid n m f hi hj, h, cell_grid n m g hi hj]

theorem shaped_ext {n : Nat} {a b : Grid} (ha : Shaped n a) (hb : Shaped n b)
    (h : ∀ i < n, ∀ j < 8, cell a i j = cell b i j) : a = b := by
  obtain ⟨f, rfl⟩ := ha
  obtain ⟨g, rfl⟩ := hb
  apply grid_congr
  intro i hi j hj
  have := h i hi j hj
  rwa [cell_grid _ _ _ hi hj, cell_grid _ _ _ hi hj] at this

/-- A layer given cell by cell. -/
theorem ginj_grid {n : Nat} (φ : Grid → Nat → Nat → Byte)
    (h : ∀ a b, (∀ i < n, ∀ j < 8, φ a i j = φ b i j) → ∀ i < n, ∀ j < 8, cell a i j = cell b i j) :
    GInj n fun a => grid n 8 (φ a) :=
  ⟨fun _ _ => ⟨_, rfl⟩, fun a b ha hb e => shaped_ext ha hb (h a b fun _ hi _ hj => grid_cells e hi hj)⟩

theorem ginj_xor_right {n : Nat} (k : Grid) : GInj n fun a => gridXor n 8 a k :=
  ginj_grid _ fun _ _ h i hi j hj => xor_left_eq (h i hi j hj)
theorem ginj_xor_left {n : Nat} (k : Grid) : GInj n fun a => gridXor n 8 k a :=
  ginj_grid _ fun _ _ h i hi j hj => xor_right_eq (h i hi j hj)

theorem ginj_xor_const {n : Nat} (c : Nat → Nat → Byte) : GInj n fun a => grid n 8 fun i j => cell a i j ^^^ c i j :=
  ginj_grid _ fun _ _ h i hi j hj => xor_left_eq (h i hi j hj)

/-- Byte substitution with an inverse table. -/
theorem ginj_sub {n : Nat} (S : Nat → Byte → Byte) (hS : ∀ j < 8, ∀ x y, S j x = S j y → x = y) :
    GInj n fun a => grid n 8 fun i j => S j (cell a i j) :=
  ginj_grid _ fun _ _ h i hi j hj => hS j hj _ _ (h i hi j hj)

theorem inv_table (S : Byte → Byte) (t : Nat) (h : ∀ x < 256, t >>> (8 * (S (BitVec.ofNat 8 x)).toNat) % 256 = x) (x y : Byte)
    (e : S x = S y) : x = y := by
  have hx := h x.toNat x.isLt
  have hy := h y.toNat y.isLt
  rw [BitVec.ofNat_toNat, BitVec.setWidth_eq] at hx hy
  apply BitVec.eq_of_toNat_eq
  rw [← hx, ← hy, e]

/-- Every row is moved by its own permutation of the columns. -/
theorem ginj_shift {n : Nat} (σ τ : Nat → Nat → Nat) (h : ∀ i < n, ∀ j < 8, τ i j < n ∧ σ (τ i j) j = i) :
    GInj n fun a => grid n 8 fun i j => cell a (σ i j) j :=
  ginj_grid _ fun _ _ e i hi j hj => by
    have := e (τ i j) (h i hi j hj).1 j hj
    rwa [(h i hi j hj).2] at this

/-- Every line goes through the same linear map. -/
theorem ginj_lin {n : Nat} (m m' : Nat → Nat → Byte → Byte) (hm : ∀ i k, Additive (m i k)) (hn : ∀ i k, Additive (m' i k))
    (hD : ∀ i < 8, ∀ j < 8, ∀ b < 8, xorSum 8 (fun k => m' i k (m k j (BitVec.twoPow 8 b))) = if i = j then BitVec.twoPow 8 b else 0) :
    GInj n fun a => grid n 8 fun i j => xorSum 8 fun k => m j k (cell a i k) :=
  ginj_grid _ fun _ _ h i hi => lin_inj m m' hm hn hD (h i hi)

/-! ### Whirlpool -/
section
open Spec.Whirlpool

theorem whirlpool_S (x y : Byte) (h : S x = S y) : x = y :=
  inv_table S whirlpoolInv (by decide +kernel) x y h

theorem whirlpool_rho (k : Grid) : GInj 8 (rho k) :=
  (ginj_xor_right k).comp <|
  (ginj_lin (n := 8) (fun j k x => gmul 0x11D (c.getD ((j + 8 - k) % 8) 0) x)
    (fun j k x => gmul 0x11D (whirlpoolMix.getD ((j + 8 - k) % 8) 0) x) (fun _ _ => gmul_right _ _) (fun _ _ => gmul_right _ _)
    (by decide +kernel)).comp <|
  (ginj_shift (n := 8) (fun i j => (i + 8 - j) % 8) (fun i j => (i + j) % 8) (by decide)).comp <|
  ginj_sub (fun _ => S) fun _ _ => whirlpool_S

theorem whirlpool_W (K : Grid) (r : Nat) : GInj 8 fun m => rounds K m r := by
  induction r with
  | zero => exact ginj_xor_right _
  | succ r ih => exact (whirlpool_rho _).comp ih
end

/-! ### Groestl -/
section
open Spec.Groestl

theorem aes_S (x y : Byte) (h : Aes.sbox x = Aes.sbox y) : x = y :=
  inv_table Aes.sbox aesInv (by decide +kernel) x y h

theorem groestl_mix (p : Params) : GInj p.cols (mixBytes p) :=
  ginj_lin (n := p.cols) (fun i k x => gmul 0x11B (B.getD ((k + 8 - i) % 8) 0) x)
    (fun i k x => gmul 0x11B (groestlMix.getD ((k + 8 - i) % 8) 0) x) (fun _ _ => gmul_right _ _) (fun _ _ => gmul_right _ _)
    (by decide +kernel)

theorem shift_ok (n s : Nat) (i : Nat) (hi : i < n) : (i + n - s % n) % n < n ∧ ((i + n - s % n) % n + s) % n = i := by
  have hn : 0 < n := by omega
  refine ⟨Nat.mod_lt _ hn, ?_⟩
  have hs : s % n < n := Nat.mod_lt _ hn
  rw [Nat.add_mod, Nat.mod_mod, ← Nat.add_mod_mod, ← Nat.add_mod, Nat.add_mod_mod]
  have e : i + n - s % n + s % n = i + n := by omega
  rw [← Nat.add_mod_mod, e, Nat.add_mod_right, Nat.mod_eq_of_lt hi]

theorem groestl_shift (p : Params) (σ : List Nat) : GInj p.cols (shiftBytes p σ) :=
  ginj_shift (n := p.cols) (fun j i => (j + σ.getD i 0) % p.cols) (fun j i => (j + p.cols - σ.getD i 0 % p.cols) % p.cols)
    fun j hj i _ => shift_ok p.cols (σ.getD i 0) j hj

theorem groestl_P (p : Params) : GInj p.cols (permP p) :=
  GInj.foldl _ fun _ _ => (groestl_mix p).comp <| (groestl_shift p _).comp <| (ginj_sub (fun _ => Aes.sbox) fun _ _ => aes_S).comp <|
    ginj_xor_const _

theorem groestl_Q (p : Params) : GInj p.cols (permQ p) :=
  GInj.foldl _ fun _ _ => (groestl_mix p).comp <| (groestl_shift p _).comp <| (ginj_sub (fun _ => Aes.sbox) fun _ _ => aes_S).comp <|
    ginj_xor_const _
end

/-! ### Kupyna -/
section
open Spec.Kupyna

theorem kupyna_S (i : Nat) (hi : i < 4) (x y : Byte) (h : Kupyna.pi i x = Kupyna.pi i y) : x = y := by
  match i, hi with
  | 0, _ => exact inv_table (Kupyna.pi 0) kupynaInv0 (by decide +kernel) x y h
  | 1, _ => exact inv_table (Kupyna.pi 1) kupynaInv1 (by decide +kernel) x y h
  | 2, _ => exact inv_table (Kupyna.pi 2) kupynaInv2 (by decide +kernel) x y h
  | 3, _ => exact inv_table (Kupyna.pi 3) kupynaInv3 (by decide +kernel) x y h

theorem kupyna_psi (p : Params) : GInj p.cols (psi p) :=
  ginj_lin (n := p.cols) (fun i k x => gmul 0x11D x (v.getD ((k + 8 - i) % 8) 0))
    (fun i k x => gmul 0x11D x (kupynaMix.getD ((k + 8 - i) % 8) 0)) (fun _ _ => gmul_left _ _) (fun _ _ => gmul_left _ _)
    (by decide +kernel)

theorem kupyna_tau (p : Params) (h : ∀ i < 8, dist p i ≤ p.cols) : GInj p.cols (tau p) :=
  ginj_shift (n := p.cols) (fun j i => (j + p.cols - dist p i) % p.cols) (fun j i => (j + dist p i) % p.cols) fun j hj i hi => by
    refine ⟨Nat.mod_lt _ (by omega), ?_⟩
    have hd := h i hi
    show ((j + dist p i) % p.cols + p.cols - dist p i) % p.cols = j
    rw [Nat.add_sub_assoc hd, Nat.add_mod, Nat.mod_mod, ← Nat.add_mod,
      show j + dist p i + (p.cols - dist p i) = j + p.cols by omega, Nat.add_mod_right, Nat.mod_eq_of_lt hj]

theorem kupyna_sub (p : Params) : GInj p.cols (sub p Kupyna.pi) :=
  ginj_sub (fun j => Kupyna.pi (j % 4)) fun j _ => kupyna_S (j % 4) (Nat.mod_lt _ (by decide))

theorem shaped_leBytes (n : Nat) (f : Nat → Nat) : Shaped n ((List.range n).map fun j => leBytes 8 (f j)) :=
  ⟨fun j i => BitVec.ofNat 8 (f j / 2 ^ (8 * i)), by
    unfold grid
    exact List.map_congr_left fun j _ => leBytes_eq_map 8 (f j)⟩

theorem kupyna_eta (p : Params) (r : Nat) : GInj p.cols (eta p r) := by
  refine ⟨fun a _ => shaped_leBytes _ _, ?_⟩
  rintro _ _ ⟨f, rfl⟩ ⟨g, rfl⟩ h
  apply grid_congr
  intro i hi j hj
  have e := congrArg (fun l => l.getD i []) h
  simp only [eta, getD_map_range _ _ _ hi] at e
  have := leBytes_inj e
  have lf : ((grid p.cols 8 f).getD i []) = (List.range 8).map (f i) := getD_map_range _ _ _ hi
  have lg : ((grid p.cols 8 g).getD i []) = (List.range 8).map (g i) := getD_map_range _ _ _ hi
  rw [lf, lg] at this
  have b1 := ofLE_lt ((List.range 8).map (f i))
  have b2 := ofLE_lt ((List.range 8).map (g i))
  simp only [List.length_map, List.length_range] at b1 b2
  have eq : ofLE ((List.range 8).map (f i)) = ofLE ((List.range 8).map (g i)) := by
    have := Nat.ModEq.add_right_cancel' _ this
    exact Nat.ModEq.eq_of_lt_of_lt this b1 b2
  have l := congrArg (leBytes 8) eq
  rw [leBytes_ofLE' (by simp), leBytes_ofLE' (by simp)] at l
  have := congrArg (fun l => l.getD j 0) l
  simpa only [getD_map_range _ _ _ hj] using this

theorem kupyna_Txor (p : Params) (h : ∀ i < 8, dist p i ≤ p.cols) : GInj p.cols (Txor p Kupyna.pi) :=
  GInj.foldl _ fun _ _ => (kupyna_psi p).comp <| (kupyna_tau p h).comp <| (kupyna_sub p).comp <| ginj_xor_const _

theorem kupyna_Tplus (p : Params) (h : ∀ i < 8, dist p i ≤ p.cols) : GInj p.cols (Tplus p Kupyna.pi) :=
  GInj.foldl _ fun _ _ => (kupyna_psi p).comp <| (kupyna_tau p h).comp <| (kupyna_sub p).comp <| kupyna_eta p _
end

/-! ### Streebog -/
section
open Spec.Streebog

theorem streebog_S (x y : Byte) (h : BitVec.ofNat 8 (pi x.toNat) = BitVec.ofNat 8 (pi y.toNat)) : x = y := by
  have hP : ∀ x < 256, streebogInv >>> (8 * (Streebog.P.getD (BitVec.ofNat 8 x).toNat 0).toNat) % 256 = x := by decide +kernel
  rw [← Streebog.P_get x.isLt, ← Streebog.P_get y.isLt] at h
  exact inv_table (fun x => Streebog.P.getD x.toNat 0) streebogInv hP x y h

/-- Contribution of byte `k` of the argument to byte `u` of `l`. -/
def lPart (u k : Nat) (x : Byte) : Byte :=
  xorSum 8 fun s => if x.getLsbD s then (row (63 - (8 * k + s))).getD u 0 else 0

theorem lPart_additive (u k : Nat) : Additive (lPart u k) :=
  additive_xorSum 8 (fun s x => if x.getLsbD s then (row (63 - (8 * k + s))).getD u 0 else 0) fun s x y => by
    show (if (x ^^^ y).getLsbD s then _ else _) = (if x.getLsbD s then _ else _) ^^^ (if y.getLsbD s then _ else _)
    rw [BitVec.getLsbD_xor]
    cases x.getLsbD s <;> cases y.getLsbD s <;> simp

theorem l_eq (b : Bytes) (u : Nat) : l b u = xorSum 8 fun k => lPart u k (b.getD k 0) := by
  rw [l, show 64 = 8 * 8 from rfl, Streebog.xorSum_mul]
  apply Streebog.xorSum_congr
  intro k _
  apply Streebog.xorSum_congr
  intro s hs
  rw [show (8 * k + s) / 8 = k by omega, show (8 * k + s) % 8 = s by omega]

/-- Inverse of `lPart`. -/
def lInv (u k : Nat) (x : Byte) : Byte := (gmul 0x171 (cell streebogMix (7 - u) (7 - k)) x.reverse).reverse

theorem lInv_additive (u k : Nat) : Additive (lInv u k) :=
  reverse_additive.comp ((gmul_right 0x171 _).comp reverse_additive)

/-- A single bit selects one row. -/
theorem lPart_unit (u k : Nat) {b : Nat} (hb : b < 8) : lPart u k (BitVec.twoPow 8 b) = (row (63 - (8 * k + b))).getD u 0 := by
  rw [lPart, Streebog.xorSum_single 8 b hb]
  · rw [if_pos (by simp [hb])]
  · intro s _ hs
    rw [if_neg]
    simp [BitVec.getLsbD_twoPow]
    omega

theorem streebog_inverse : ∀ i < 8, ∀ j < 8, ∀ b < 8,
    xorSum 8 (fun k => lInv i k (byteAt (Streebog.A.getD (8 * j + b) 0) k)) = if i = j then BitVec.twoPow 8 b else 0 := by
  decide +kernel

theorem streebog_L : GInj 8 L := by
  have h := ginj_lin (n := 8) lPart lInv lPart_additive lInv_additive fun i hi j hj b hb => by
    rw [← streebog_inverse i hi j hj b hb]
    exact Streebog.xorSum_congr fun k hk => by rw [lPart_unit k j hb, Streebog.A_get (by omega) hk]
  have e : L = fun a => grid 8 8 fun i j => xorSum 8 fun k => lPart j k (cell a i k) := by
    funext a
    exact grid_congr fun i _ j _ => l_eq _ _
  rw [e]
  exact h

theorem streebog_P : GInj 8 P := by
  apply ginj_grid
  intro a b h i hi j hj
  exact h j hj i hi

theorem streebog_LPS : GInj 8 LPS :=
  streebog_L.comp <| streebog_P.comp <| ginj_sub (fun _ x => BitVec.ofNat 8 (pi x.toNat)) fun _ _ => streebog_S

theorem streebog_E (C : List Grid) (K : Grid) : GInj 8 (E C K) := by
  induction C generalizing K with
  | nil => exact ginj_xor_left K
  | cons c C ih => exact (ih _).comp (streebog_LPS.comp (ginj_xor_left K))
end

end Hashes.Perm
