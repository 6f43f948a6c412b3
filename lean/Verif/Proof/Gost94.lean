import Verif.Model.Gost94
import Verif.Spec.Gost94
import Verif.Proof.Vec256
import Verif.Proof.Md
/- Helper lemmas: the modelled GOST94 equals its specification. -/
namespace Hashes
namespace Gost94
open Spec.Gost94 (vec)
open Spec (limbsLE)

theorem byteAt_vec (b : Bytes) {j : Nat} (h : j < 32) : byteAt (vec b) j = b.getD j 0 := byteAt_ofLE b j (by omega)

theorem vec_ext {b : Bytes} {Y : Spec.Gost94.V} (h : ∀ j < 32, b.getD j 0 = byteAt Y j) : vec b = Y :=
  byteAt_ext (k := 32) rfl fun j hj => by rw [byteAt_vec b hj, h j hj]

/-! ### Linear parts -/

theorem vec_x (a b : Bytes) : vec (x a b) = vec a ^^^ vec b :=
  vec_ext fun j hj => by rw [x, getD_map_range _ _ _ hj, byteAt_xor, byteAt_vec _ hj, byteAt_vec _ hj]

theorem length_x (a b : Bytes) : (x a b).length = 32 := by simp [x]

theorem vec_a (b : Bytes) (hb : b.length = 32) : vec (a b) = Spec.Gost94.A (vec b) := by
  apply vec_ext
  intro j hj
  simp only [Spec.Gost94.A]
  have hl : (b.drop 8).length = 24 := by simp [hb]
  by_cases h1 : j < 8
  · rw [byteAt_append_lt (k := 8) rfl _ _ h1, byteAt_extract (o := 8) rfl _ (by omega), byteAt_vec _ (by omega), a,
      getD_append_lt (by omega), getD_drop]
  rw [byteAt_append_ge (k := 8) rfl _ _ (by omega)]
  by_cases h2 : j - 8 < 8
  · rw [byteAt_append_lt (k := 8) rfl _ _ h2, byteAt_extract (o := 16) rfl _ (by omega), byteAt_vec _ (by omega), a,
      getD_append_lt (by omega), getD_drop]
    congr 1; omega
  rw [byteAt_append_ge (k := 8) rfl _ _ (by omega)]
  by_cases h3 : j - 8 - 8 < 8
  · rw [byteAt_append_lt (k := 8) rfl _ _ h3, byteAt_extract (o := 24) rfl _ (by omega), byteAt_vec _ (by omega), a,
      getD_append_lt (by omega), getD_drop]
    congr 1; omega
  rw [byteAt_append_ge (k := 8) rfl _ _ (by omega), byteAt_xor, byteAt_extract (o := 0) rfl _ (by omega),
    byteAt_extract (o := 8) rfl _ (by omega), byteAt_vec _ (by omega), byteAt_vec _ (by omega), a, getD_append_ge (by omega), hl,
    getD_map_range _ _ _ (by omega)]
  congr 2 <;> omega

theorem length_a (b : Bytes) (hb : b.length = 32) : (a b).length = 32 := by simp [a, hb]

theorem vec_p (b : Bytes) : vec (p b) = Spec.Gost94.P (vec b) := by
  rw [Spec.Gost94.P, vec, p]
  congr 2
  apply List.map_congr_left
  intro t ht
  rw [List.mem_range] at ht
  exact (byteAt_vec b (j := 8 * (t % 4) + t / 4) (by omega)).symm

theorem length_p (b : Bytes) : (p b).length = 32 := by simp [p]

theorem vec_psi (b : Bytes) (hb : b.length = 32) : vec (psi b) = Spec.Gost94.psi (vec b) := by
  apply vec_ext
  intro j hj
  simp only [Spec.Gost94.psi]
  have hl : (b.drop 2).length = 30 := by simp [hb]
  by_cases h1 : j < 30
  · rw [byteAt_append_lt (k := 30) rfl _ _ h1, byteAt_extract (o := 2) rfl _ (by omega), byteAt_vec _ (by omega), psi,
      getD_append_lt (by omega), getD_drop]
  · rw [byteAt_append_ge (k := 30) rfl _ _ (by omega), psi, getD_append_ge (by omega), hl]
    simp only [byteAt_xor]
    have h2 : j - 30 < 2 := by omega
    rw [byteAt_extract (o := 0) rfl _ (by omega), byteAt_extract (o := 2) rfl _ (by omega),
      byteAt_extract (o := 4) rfl _ (by omega), byteAt_extract (o := 6) rfl _ (by omega),
      byteAt_extract (o := 24) rfl _ (by omega), byteAt_extract (o := 30) rfl _ (by omega)]
    generalize j - 30 = t at h2
    rw [byteAt_vec _ (by omega), byteAt_vec _ (by omega), byteAt_vec _ (by omega), byteAt_vec _ (by omega),
      byteAt_vec _ (by omega), byteAt_vec _ (by omega)]
    match t, h2 with
    | 0, _ | 1, _ => rfl

theorem length_psi (b : Bytes) (hb : b.length = 32) : (psi b).length = 32 := by simp [psi, hb]

theorem length_psiN (n : Nat) (b : Bytes) (hb : b.length = 32) : (psiN n b).length = 32 := by
  induction n generalizing b with
  | zero => exact hb
  | succ n ih => exact ih _ (length_psi b hb)

theorem vec_psiN (n : Nat) (b : Bytes) (hb : b.length = 32) : vec (psiN n b) = Spec.Gost94.psiN n (vec b) := by
  induction n generalizing b with
  | zero => rfl
  | succ n ih =>
    have h : ∀ n (G : Spec.Gost94.V), Spec.Gost94.psiN n (Spec.Gost94.psi G) = Spec.Gost94.psi (Spec.Gost94.psiN n G) := by
      intro n G
      induction n with
      | zero => rfl
      | succ n ih => rw [Spec.Gost94.psiN, ih, Spec.Gost94.psiN]
    rw [psiN, ih _ (length_psi b hb), vec_psi b hb, h, Spec.Gost94.psiN]

/-! ### Encryption -/

theorem nibble (y : W32) (i : Nat) (hi : i < 8) :
    ((y &&& ((0b1111 : W32) <<< (4 * i))) >>> (4 * i)).toNat = y.toNat / 16 ^ i % 16 := by
  have h : ∀ i < 8, ((0b1111 : W32) <<< (4 * i)).toNat >>> (4 * i) = 15 := by decide
  rw [BitVec.toNat_ushiftRight, BitVec.toNat_and, Nat.shiftRight_and_distrib, h i hi, Nat.shiftRight_eq_div_pow,
    show 2 ^ (4 * i) = 16 ^ i by rw [Nat.pow_mul]]
  exact Nat.and_two_pow_sub_one_eq_mod _ 4

theorem sbox_eq (y : W32) (s : List (List Byte)) : sbox y s = Spec.Gost94.subst s y := by
  have h : ∀ n, n ≤ 8 → (List.range n).foldl (fun v i =>
      v + (((s.getD i []).getD ((y &&& ((0b1111 : W32) <<< (4 * i))) >>> (4 * i)).toNat 0).setWidth 32 <<< (4 * i))) (0 : W32) =
      BitVec.ofNat 32 (((List.range n).map fun i => ((s.getD i []).getD (y.toNat / 16 ^ i % 16) 0).toNat * 16 ^ i).sum) := by
    intro n hn
    induction n with
    | zero => rfl
    | succ n ih =>
      rw [List.range_succ, List.foldl_append, List.map_append, List.sum_append, BitVec.ofNat_add, ih (by omega)]
      simp only [List.foldl_cons, List.foldl_nil, List.map_cons, List.map_nil, List.sum_cons, List.sum_nil, Nat.add_zero]
      rw [nibble y n (by omega)]
      congr 1
      generalize ((s.getD n []).getD (y.toNat / 16 ^ n % 16) 0) = b
      apply BitVec.eq_of_toNat_eq
      have hb := b.isLt
      rw [BitVec.toNat_shiftLeft, BitVec.toNat_setWidth, BitVec.toNat_ofNat, Nat.shiftLeft_eq, Nat.pow_mul,
        Nat.mod_eq_of_lt (show b.toNat < 2 ^ 32 by omega)]
  exact h 8 (Nat.le_refl _)

theorem round_eq (s : List (List Byte)) : round s = Spec.Gost94.round s := by
  funext ab k
  rw [round, g, sbox_eq, Spec.Gost94.round]

theorem wordLE_extract {w : Nat} (b : Bytes) (i k : Nat) (hw : w = 8 * k) (h : k * i + k ≤ 32) :
    wordLE w b i = (vec b).extractLsb' (w * i) w := by
  subst hw
  apply byteAt_ext (k := k) rfl
  intro j hj
  rw [wordLE, byteAt_ofLE _ _ (by omega), show 8 * k / 8 = k by omega, getD_take hj, getD_drop,
    byteAt_extract (o := k * i) (by rw [Nat.mul_assoc]) _ (by omega), byteAt_vec _ (by omega)]

theorem wordLE_sub (h : Bytes) (o i : Nat) (hi : i < 2) (ho : o + 8 ≤ 32) :
    wordLE 32 ((h.drop o).take 8) i = ((vec h).extractLsb' (8 * o) 64).extractLsb' (32 * i) 32 := by
  apply byteAt_ext (k := 4) rfl
  intro j hj
  rw [wordLE, byteAt_ofLE _ _ (by omega), show 32 / 8 = 4 from rfl, getD_take hj, getD_drop, getD_take (by omega), getD_drop,
    byteAt_extract (o := 4 * i) (by omega) _ (by omega), byteAt_extract (o := o) rfl _ (by omega), byteAt_vec _ (by omega)]

theorem getD_encrypt (sb : List (List Byte)) (h key : Bytes) (o j : Nat) (ho : o + 8 ≤ 32) (hj : j < 8) :
    (encrypt ((h.drop o).take 8) key sb).getD j 0 =
      byteAt (Spec.Gost94.E sb (vec key) ((vec h).extractLsb' (8 * o) 64)) j := by
  simp only [encrypt, Spec.Gost94.E]
  rw [wordLE_sub h o 0 (by decide) ho, wordLE_sub h o 1 (by decide) ho, round_eq]
  have hk : (List.range 8).map (wordLE 32 key) = [0, 1, 2, 3, 4, 5, 6, 7].map fun i => (vec key).extractLsb' (32 * i) 32 := by
    apply List.map_congr_left
    intro i hi
    rw [List.mem_range] at hi
    exact wordLE_extract key i 4 rfl (by omega)
  rw [hk]
  simp only [List.map_cons, List.map_nil, List.foldl_cons, List.foldl_nil, List.reverse_cons, List.reverse_nil, List.nil_append,
    List.cons_append, show List.range 3 = [0, 1, 2] from rfl]
  generalize Spec.Gost94.round sb _ _ = n
  by_cases hj4 : j < 4
  · rw [getD_append_lt (by simpa using hj4), getD_leBytes _ hj4, byteAt_append_lt (k := 4) rfl _ _ hj4]
  · rw [getD_append_ge (by simp; omega), length_leBytes, getD_leBytes _ (by omega),
      byteAt_append_ge (k := 4) rfl _ _ (by omega)]

theorem length_encrypt (sb : List (List Byte)) (m key : Bytes) : (encrypt m key sb).length = 8 := by simp [encrypt]

/-! ### The step function -/

theorem vec_C : vec C = Spec.Gost94.C3 := by decide +kernel

theorem keys_eq (h m : Bytes) (hh : h.length = 32) (hm : m.length = 32) :
    vec (p (x h m)) = Spec.Gost94.key (vec h) (vec m) 1 ∧
    vec (p (x (a h) (a (a m)))) = Spec.Gost94.key (vec h) (vec m) 2 ∧
    vec (p (x (x (a (a h)) C) (a (a (a (a m)))))) = Spec.Gost94.key (vec h) (vec m) 3 ∧
    vec (p (x (a (x (a (a h)) C)) (a (a (a (a (a (a m)))))))) = Spec.Gost94.key (vec h) (vec m) 4 := by
  have m1 := length_a m hm
  have m2 := length_a _ m1
  have m3 := length_a _ m2
  have m4 := length_a _ m3
  have m5 := length_a _ m4
  have h1 := length_a h hh
  have hx := length_x (a (a h)) C
  have z : ∀ v : Spec.Gost94.V, v ^^^ 0 = v := fun v => BitVec.xor_zero
  simp only [Spec.Gost94.key, Spec.Gost94.uv, vec_p, vec_x, vec_a _ hm, vec_a _ m1, vec_a _ m2, vec_a _ m3, vec_a _ m4,
    vec_a _ m5, vec_a _ hh, vec_a _ h1, vec_a _ hx, vec_C, Spec.Gost94.C, Nat.reduceEqDiff, if_false, if_true, z, and_self]

theorem length_shuffle (h m s : Bytes) : (shuffle h m s).length = 32 := length_psiN _ _ (length_x _ _)

theorem f_eq (sb : List (List Byte)) (h m : Bytes) (hh : h.length = 32) (hm : m.length = 32) :
    vec (f sb h m) = Spec.Gost94.chi sb (vec h) (vec m) := by
  obtain ⟨k1, k2, k3, k4⟩ := keys_eq h m hh hm
  simp only [f, shuffle]
  generalize hs : _ ++ encrypt ((h.drop 24).take 8) _ sb = s
  have hls : s.length = 32 := by rw [← hs]; simp [length_encrypt]
  have hS : vec s = Spec.Gost94.E sb (Spec.Gost94.key (vec h) (vec m) 4) ((vec h).extractLsb' (64 * (4 - 1)) 64) ++
      Spec.Gost94.E sb (Spec.Gost94.key (vec h) (vec m) 3) ((vec h).extractLsb' (64 * (3 - 1)) 64) ++
      Spec.Gost94.E sb (Spec.Gost94.key (vec h) (vec m) 2) ((vec h).extractLsb' (64 * (2 - 1)) 64) ++
      Spec.Gost94.E sb (Spec.Gost94.key (vec h) (vec m) 1) ((vec h).extractLsb' (64 * (1 - 1)) 64) := by
    subst hs
    apply vec_ext
    intro j hj
    rw [← k1, ← k2, ← k3, ← k4]
    simp only [List.append_assoc]
    by_cases h1 : j < 8
    · rw [byteAt_append_lt (k := 8) rfl _ _ h1, getD_append_lt (by rw [length_encrypt]; exact h1),
        getD_encrypt _ _ _ 0 _ (by decide) h1]
    rw [byteAt_append_ge (k := 8) rfl _ _ (by omega), getD_append_ge (by rw [length_encrypt]; omega), length_encrypt]
    by_cases h2 : j - 8 < 8
    · rw [byteAt_append_lt (k := 8) rfl _ _ h2, getD_append_lt (by rw [length_encrypt]; exact h2),
        getD_encrypt _ _ _ 8 _ (by decide) h2]
    rw [byteAt_append_ge (k := 8) rfl _ _ (by omega), getD_append_ge (by rw [length_encrypt]; omega), length_encrypt]
    by_cases h3 : j - 8 - 8 < 8
    · rw [byteAt_append_lt (k := 8) rfl _ _ h3, getD_append_lt (by rw [length_encrypt]; exact h3),
        getD_encrypt _ _ _ 16 _ (by decide) h3]
    rw [byteAt_append_ge (k := 8) rfl _ _ (by omega), getD_append_ge (by rw [length_encrypt]; omega), length_encrypt,
      getD_encrypt _ _ _ 24 _ (by decide) (by omega)]
  have hc : ∀ a b : Spec.Gost94.V, a ^^^ b = b ^^^ a := fun a b => BitVec.xor_comm a b
  rw [vec_psiN _ _ (length_x _ _), vec_x, vec_psi _ (length_x _ _), vec_x, vec_psiN _ _ hls, hS, hc _ (vec m)]
  rfl

theorem length_f (sb : List (List Byte)) (h m : Bytes) : (f sb h m).length = 32 := length_shuffle _ _ _

attribute [local irreducible] f

/-! ### The 256-bit registers -/

theorem adc_spec (a b c : W64) (hc : c.toNat ≤ 1) :
    (adc a b c).1.toNat + 2 ^ 64 * (adc a b c).2.toNat = a.toNat + b.toNat + c.toNat ∧ (adc a b c).2.toNat ≤ 1 := by
  have ha := a.isLt
  have hb := b.isLt
  simp only [adc, BitVec.toNat_setWidth, BitVec.toNat_add, BitVec.toNat_ushiftRight, Nat.shiftRight_eq_div_pow]
  omega

/-- Value of a register. -/
def val (a : V4 W64) : Nat := limbsLE a.toList

theorem val_unfold (a : V4 W64) :
    val a = a.x0.toNat + 2 ^ 64 * a.x1.toNat + 2 ^ 128 * a.x2.toNat + 2 ^ 192 * a.x3.toNat := by
  simp only [val, V4.toList, limbsLE]; omega

theorem val_lt (a : V4 W64) : val a < 2 ^ 256 := limbsLE_lt a.toList

theorem val_addLimbs (a b : V4 W64) : val (addLimbs a b) = (val a + val b) % 2 ^ 256 := by
  have h0 : _ ∧ _ := adc_spec a.x0 b.x0 0 (by decide)
  have h1 : _ ∧ _ := adc_spec a.x1 b.x1 _ h0.2
  have h2 : _ ∧ _ := adc_spec a.x2 b.x2 _ h1.2
  have h3 : _ ∧ _ := adc_spec a.x3 b.x3 _ h2.2
  rw [val_unfold, val_unfold, val_unfold]
  simp only [addLimbs]
  have l0 := (adc a.x0 b.x0 0).1.isLt
  have l1 := (adc a.x1 b.x1 (adc a.x0 b.x0 0).2).1.isLt
  have l2 := (adc a.x2 b.x2 (adc a.x1 b.x1 (adc a.x0 b.x0 0).2).2).1.isLt
  have l3 := (adc a.x3 b.x3 (adc a.x2 b.x2 (adc a.x1 b.x1 (adc a.x0 b.x0 0).2).2).2).1.isLt
  rw [show (0 : W64).toNat = 0 from rfl] at h0
  omega

theorem val_updateN (n : V4 W64) (len : W64) : val (updateN n len) = (val n + 8 * len.toNat) % 2 ^ 256 := by
  have := len.isLt
  rw [updateN, val_addLimbs, val_unfold ⟨len <<< 3, len >>> 61, 0, 0⟩]
  simp only [BitVec.toNat_shiftLeft, BitVec.toNat_ushiftRight, Nat.shiftLeft_eq, Nat.shiftRight_eq_div_pow,
    show (0 : W64).toNat = 0 from rfl]
  congr 2
  omega

theorem val_inj {a b : V4 W64} (h : val a = val b) : a = b := by
  rw [val_unfold, val_unfold] at h
  have := a.x0.isLt; have := a.x1.isLt; have := a.x2.isLt; have := a.x3.isLt
  have := b.x0.isLt; have := b.x1.isLt; have := b.x2.isLt; have := b.x3.isLt
  ext1 <;> apply BitVec.eq_of_toNat_eq <;> omega

theorem val_blocks (n : V4 W64) (l : List Bytes) :
    val (l.foldl (fun n _ => updateN n 32) n) = (val n + 256 * l.length) % 2 ^ 256 := by
  induction l generalizing n with
  | nil => rw [List.foldl_nil, List.length_nil, Nat.mul_zero, Nat.add_zero, Nat.mod_eq_of_lt (val_lt n)]
  | cons x l ih =>
    rw [List.foldl_cons, ih, val_updateN, List.length_cons, show (32 : W64).toNat = 32 from rfl, Nat.mod_add_mod,
      show val n + 8 * 32 + 256 * l.length = val n + 256 * (l.length + 1) by omega]

/-- The single call `update_n(32 * blocks.len())` of the code equals the per-block additions of the model. -/
theorem updateN_slice (n : V4 W64) (l : List Bytes) (h : l.length < 2 ^ 59) :
    updateN n (BitVec.ofNat 64 (32 * l.length)) = l.foldl (fun n _ => updateN n 32) n := by
  apply val_inj
  rw [val_updateN, val_blocks, BitVec.toNat_ofNat, Nat.mod_eq_of_lt (show 32 * l.length < 2 ^ 64 by omega),
    show val n + 8 * (32 * l.length) = val n + 256 * l.length by omega]

theorem vec_limbs (a : V4 W64) : vec (bytesOfWordsLE a.toList) = BitVec.ofNat 256 (val a) := by
  rw [bytes_limbs, vec, ofLE_leBytes, show (256 : Nat) ^ (8 * a.toList.length) = 2 ^ 256 by rw [show a.toList.length = 4 from rfl]]
  apply BitVec.eq_of_toNat_eq
  simp only [BitVec.toNat_ofNat, Nat.mod_mod, val]

theorem ofNat_sigma (s : V4 W64) (b : Bytes) (hb : b.length = 32) :
    BitVec.ofNat 256 (val (updateSigma s b)) = BitVec.ofNat 256 (val s) + vec b := by
  have e : val (V4.ofFn (wordLE 64 b)) = ofLE b := limbs_words b 4 (by omega)
  rw [updateSigma, val_addLimbs, e, vec, ← BitVec.ofNat_add]
  apply BitVec.eq_of_toNat_eq
  simp only [BitVec.toNat_ofNat, Nat.mod_mod]

/-! ### Interface laws -/

variable {sb : List (List Byte)} {h0 : Bytes}

theorem foldl_n (l : List Bytes) (h : Bytes) (n n' σ : V4 W64) :
    l.foldl (compress sb) ⟨h, n, σ⟩ = ⟨(l.foldl (compress sb) ⟨h, n', σ⟩).h, n, (l.foldl (compress sb) ⟨h, n', σ⟩).sigma⟩ := by
  induction l generalizing h σ with
  | nil => rfl
  | cons x l ih => exact ih _ _

/-- The digest register has 32 bytes. -/
def Shape (s : State) : Prop := s.h.length = 32

theorem foldl_shape (l : List Bytes) (s : State) (h : Shape s) : Shape (l.foldl (compress sb) s) := by
  induction l generalizing s with
  | nil => exact h
  | cons x l ih => exact ih _ (length_f _ _ _)

theorem lawful (hh : h0.length = 32) : (gost94 sb h0).Lawful Shape where
  bs_pos := (by decide : 0 < 32)
  nil := fun s => rfl
  app := fun s x y => by
    simp only [gost94, updateBlocks, List.foldl_append]
    rw [foldl_n x s.h (y.foldl (fun n _ => updateN n 32) (x.foldl (fun n _ => updateN n 32) s.n))
      (x.foldl (fun n _ => updateN n 32) s.n) s.sigma]
    rw [foldl_n x s.h (x.foldl (fun n _ => updateN n 32) s.n) (x.foldl (fun n _ => updateN n 32) s.n) s.sigma]
  inv_init := hh
  inv_update := fun s x _ h => foldl_shape x _ h
  reset_eq := fun _ _ => rfl
  fin_congr := fun s b b' h h' hc => by
    simp only [gost94, finalize, BlockBuffer.padWithZeros]
    have := pos_congr h h' hc
    simp only [BlockBuffer.content] at hc
    rw [this] at hc ⊢
    rw [hc]

theorem words4 (a : V4 W64) : V4.ofFn (wordLE 64 (bytesOfWordsLE a.toList)) = a := by
  have h : ∀ i (hi : i < 4), wordLE 64 (bytesOfWordsLE a.toList) i = a.toList.getD i 0 := fun i hi => by
    have := wordLE_append (by decide) a.toList [] (0 : W64) (i := i) (by simpa [V4.toList] using hi)
    rwa [List.append_nil] at this
  simp only [V4.ofFn, h 0 (by decide), h 1 (by decide), h 2 (by decide), h 3 (by decide)]
  rfl

theorem length_words4 (a : V4 W64) : (bytesOfWordsLE a.toList).length = 32 := by rw [length_bytesOfWordsLE]; rfl

theorem bytes_words4 (b : Bytes) (h : b.length = 32) : bytesOfWordsLE (V4.ofFn (wordLE 64 b)).toList = b := by
  have e : (V4.ofFn (wordLE 64 b)).toList = (List.range 4).map (wordLE 64 b) := rfl
  rw [e, bytesOfWordsLE_range (by decide) _ _ (by omega), List.take_of_length_le (by omega)]

theorem serLawful : (gost94 sb h0).SerLawful Shape where
  bs_le := (by decide : 32 ≤ 255)
  len := fun s h => by simp [gost94, serialize, length_words4, show s.h.length = 32 from h]
  round := fun s h => by
    have h : s.h.length = 32 := h
    simp only [gost94, serialize, deserialize]
    rw [if_pos (by simp [length_words4, h]), List.append_assoc, List.take_left' h, List.drop_left' h,
      List.take_left' (length_words4 _), words4, ← List.append_assoc, List.drop_left' (by simp [length_words4, h]), words4]

theorem deserLawful : (gost94 sb h0).DeserLawful where
  canon := fun raw s h => by
    simp only [gost94, deserialize, serialize] at h ⊢
    split at h
    · rename_i hl
      injection h with h
      subst h
      rw [bytes_words4 _ (by simp; omega), bytes_words4 _ (by simp; omega), List.append_assoc,
        show raw.drop 64 = (raw.drop 32).drop 32 by rw [List.drop_drop], List.take_append_drop, List.take_append_drop]
    · cases h

/-- The abstraction of a state (without the counter). -/
def abs (s : State) : Spec.Gost94.V × Spec.Gost94.V := (vec s.h, BitVec.ofNat 256 (val s.sigma))

theorem abs_compress (s : State) (hs : Shape s) (b : Bytes) (hb : b.length = 32) :
    abs (compress sb s b) = Spec.Gost94.step sb (abs s) b := by
  simp only [abs, compress, Spec.Gost94.step]
  rw [f_eq sb _ _ hs hb, ofNat_sigma _ _ hb]

theorem abs_foldl (l : List Bytes) (hl : ∀ b ∈ l, b.length = 32) (s : State) (hs : Shape s) :
    abs (l.foldl (compress sb) s) = l.foldl (Spec.Gost94.step sb) (abs s) := by
  induction l generalizing s with
  | nil => rfl
  | cons x l ih =>
    rw [List.foldl_cons, List.foldl_cons, ih (fun b hb => hl b (List.mem_cons_of_mem _ hb)) (compress sb s x) (length_f _ _ _),
      abs_compress s hs x (hl x List.mem_cons_self)]

theorem foldl_keep_n (l : List Bytes) (s : State) : (l.foldl (compress sb) s).n = s.n := by
  induction l generalizing s with
  | nil => rfl
  | cons x l ih => rw [List.foldl_cons, ih]; rfl

theorem vec_zeros (b : Bytes) (k : Nat) : vec (b ++ List.replicate k 0) = vec b := by
  apply vec_ext
  intro j hj
  rw [byteAt_vec _ hj]
  by_cases h : j < b.length
  · rw [getD_append_lt h]
  · rw [getD_append_ge (by omega)]
    simp only [List.getD_eq_getElem?_getD, List.getElem?_eq_none (show b.length ≤ j by omega), List.getElem?_replicate]
    split <;> rfl

theorem out_eq (h : Bytes) (hh : h.length = 32) : h = leBytes 32 (vec h).toNat := by
  rw [vec, leBytes_counter (by decide), leBytes_ofLE' hh]

theorem digest_eq (hh : h0.length = 32) (m : Bytes) :
    (gost94 sb h0).digest m = Spec.Gost94.hash sb (vec h0) m := by
  obtain ⟨b, h1, h2, h3, h4⟩ := Core.digest_eager (lawful hh) rfl m
  rw [h4]
  simp only [gost94] at h1 h2 h3 ⊢
  have hblk : ∀ b ∈ blocks 32 (m.length / 32) m, b.length = 32 := fun b hb => length_of_mem_blocks (by omega) hb
  have hlt : m.length % 32 < 32 := Nat.mod_lt _ (by decide)
  simp only [finalize, BlockBuffer.padWithZeros, h3]
  have hc : b.data.take (m.length % 32) = m.drop (32 * (m.length / 32)) := by
    rw [← h3, Nat.mul_comm]; exact h2
  rw [hc]
  have hs0 : Shape (updateBlocks sb (init h0) (blocks 32 (m.length / 32) m)) := foldl_shape _ _ hh
  have ha0 : abs (updateBlocks sb (init h0) (blocks 32 (m.length / 32) m)) =
      (blocks 32 (m.length / 32) m).foldl (Spec.Gost94.step sb) (vec h0, 0) := abs_foldl _ hblk _ hh
  have hn0 : val (updateBlocks sb (init h0) (blocks 32 (m.length / 32) m)).n = (256 * (m.length / 32)) % 2 ^ 256 := by
    rw [updateBlocks, foldl_keep_n]
    simp only
    rw [val_blocks, length_blocks, show val (init h0).n = 0 from rfl, Nat.zero_add]
  generalize updateBlocks sb (init h0) (blocks 32 (m.length / 32) m) = st at hs0 ha0 hn0 ⊢
  -- the state after the last (possibly partial) block
  have key : ∀ st' : State, Shape st' → abs st' = (Spec.Gost94.split m).foldl (Spec.Gost94.step sb) (vec h0, 0) →
      val st'.n = (8 * m.length) % 2 ^ 256 →
      f sb (f sb st'.h (bytesOfWordsLE st'.n.toList)) (bytesOfWordsLE st'.sigma.toList) = Spec.Gost94.hash sb (vec h0) m := by
    intro st' hs' ha' hn'
    rw [out_eq (f sb _ _) (length_f _ _ _), f_eq sb _ _ (length_f _ _ _) (length_words4 _), f_eq sb _ _ hs' (length_words4 _),
      vec_limbs, vec_limbs, Spec.Gost94.hash, ← ha', hn']
    simp only [abs]
    rw [show BitVec.ofNat 256 (8 * m.length % 2 ^ 256) = BitVec.ofNat 256 (8 * m.length) from
      BitVec.eq_of_toNat_eq (by simp only [BitVec.toNat_ofNat, Nat.mod_mod])]
  by_cases h0' : m.length % 32 = 0
  · rw [if_neg (by omega)]
    refine key st hs0 ?_ ?_
    · rw [ha0, Spec.Gost94.split, if_pos h0', List.append_nil]
    · rw [hn0]; congr 1; omega
  · rw [if_pos h0']
    have hlen : (m.drop (32 * (m.length / 32)) ++ List.replicate (32 - m.length % 32) (0 : Byte)).length = 32 := by
      simp; omega
    refine key _ (length_f _ _ _) ?_ ?_
    · rw [abs_compress ⟨st.h, updateN st.n (BitVec.ofNat 64 (m.length % 32)), st.sigma⟩ hs0 _ hlen, Spec.Gost94.split, if_neg h0', List.foldl_append, ← ha0]
      simp only [List.foldl_cons, List.foldl_nil, Spec.Gost94.step]
      rw [vec_zeros]; rfl
    · simp only [compress]
      rw [val_updateN, hn0, BitVec.toNat_ofNat, Nat.mod_add_mod, Nat.mod_eq_of_lt (show m.length % 32 < 2 ^ 64 by omega)]
      congr 1; omega

end Gost94
end Hashes
