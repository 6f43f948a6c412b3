import Verif.Model.Jh
import Verif.Spec.Jh
import Verif.Proof.JhConst
import Verif.Proof.Vec256
import Verif.Proof.Md
/- Helper lemmas: the modelled (bit-sliced) JH equals its reference specification on 4-bit elements. -/
namespace Hashes
namespace Jh
open Spec.Jh (nib byte S L R bit group degroup cbit)

/-! ### Bits of words; bit `i` of the memory order is bit `i xor 7` of the little-endian word -/

theorem xor7 : ∀ i < 128, (i ^^^ 7) / 8 = i / 8 ∧ (i ^^^ 7) % 8 = 7 - i % 8 ∧ i ^^^ 7 < 128 := by decide +kernel

def bitAt (x : W128) (i : Nat) : Bool := x.getLsbD (i ^^^ 7)

theorem bitAt_xor (x y : W128) (i : Nat) : bitAt (x ^^^ y) i = (bitAt x i ^^ bitAt y i) := BitVec.getLsbD_xor
theorem bitAt_and (x y : W128) (i : Nat) : bitAt (x &&& y) i = (bitAt x i && bitAt y i) := BitVec.getLsbD_and
theorem bitAt_or (x y : W128) (i : Nat) : bitAt (x ||| y) i = (bitAt x i || bitAt y i) := BitVec.getLsbD_or
theorem bitAt_not (x : W128) {i : Nat} (hi : i < 128) : bitAt (~~~x) i = !bitAt x i := by
  simp [bitAt, (xor7 i hi).2.2]
theorem bitAt_andnot (x y : W128) {i : Nat} (hi : i < 128) : bitAt (andnot x y) i = (!bitAt x i && bitAt y i) := by
  rw [andnot, bitAt_and, bitAt_not _ hi]

theorem mask_facts : ∀ j < 7, ∀ i < 128,
    ((swapMask j).getLsbD i = true → i ^^^ 2 ^ j = 2 ^ j + i ∧ (2 ^ j ≤ i → (swapMask j).getLsbD (i - 2 ^ j) = false)) ∧
    ((swapMask j).getLsbD i = false → 2 ^ j ≤ i ∧ i ^^^ 2 ^ j = i - 2 ^ j ∧ (swapMask j).getLsbD (i - 2 ^ j) = true) := by
  decide +kernel

theorem swap_bit (j : Nat) (hj : j < 7) (x : W128) (i : Nat) (hi : i < 128) :
    (swap j x).getLsbD i = x.getLsbD (i ^^^ 2 ^ j) := by
  obtain ⟨h1, h2⟩ := mask_facts j hj i hi
  simp only [swap, BitVec.getLsbD_or, BitVec.getLsbD_and, BitVec.getLsbD_shiftLeft, BitVec.getLsbD_ushiftRight, hi, decide_true,
    Bool.true_and]
  cases hm : (swapMask j).getLsbD i with
  | true =>
    obtain ⟨e, h3⟩ := h1 hm
    rw [e, Bool.and_true]
    by_cases hle : 2 ^ j ≤ i
    · rw [h3 hle]; simp
    · have : i < 2 ^ j := by omega
      simp [this]
  | false =>
    obtain ⟨hle, e, h3⟩ := h2 hm
    rw [e, h3]
    have : ¬ i < 2 ^ j := by omega
    simp [this]

theorem bitAt_swap (j : Nat) (hj : j < 7) (x : W128) (i : Nat) (hi : i < 128) :
    bitAt (swap j x) i = bitAt x (i ^^^ 2 ^ j) := by
  rw [bitAt, swap_bit j hj x _ (xor7 i hi).2.2, bitAt, Nat.xor_assoc, Nat.xor_assoc, Nat.xor_comm 7]

/-! ### Elements -/

/-- Element `b` (even/odd) number `i` of the bit-sliced state. -/
def elem (y : V8 W128) (b i : Nat) : Spec.Jh.Nib := nib fun k => bitAt (y.get (2 * k + b)) i

/-- The boolean function computed by `ss`. -/
theorem sbox_bits : ∀ m0 m1 m2 m3 k : Bool,
    (let m3 := !m3
     let m0 := m0 ^^ (!m2 && k)
     let k := k ^^ (m0 && m1)
     let m0 := m0 ^^ (m3 && m2)
     let m3 := m3 ^^ (!m1 && m2)
     let m1 := m1 ^^ (m0 && m2)
     let m2 := m2 ^^ (!m3 && m0)
     let m0 := m0 ^^ (m1 || m3)
     let m3 := m3 ^^ (m1 && m2)
     let m2 := m2 ^^ k
     let m1 := m1 ^^ (k && m0)
     BitVec.ofBool m0 ++ BitVec.ofBool m1 ++ BitVec.ofBool m2 ++ BitVec.ofBool m3) =
    S k (BitVec.ofBool m0 ++ BitVec.ofBool m1 ++ BitVec.ofBool m2 ++ BitVec.ofBool m3) := by
  decide +kernel

theorem elem_ss (y : V8 W128) (k0 k1 : W128) (b : Nat) (hb : b < 2) {i : Nat} (hi : i < 128) :
    elem (ss y k0 k1) b i = S (bitAt (if b = 0 then k0 else k1) i) (elem y b i) := by
  match b, hb with
  | 0, _ =>
    simp only [if_true]
    rw [elem, elem, nib, nib, ← sbox_bits]
    simp only [ss, ssHalf, V8.get, bitAt_xor, bitAt_and, bitAt_or, bitAt_not _ hi, bitAt_andnot _ _ hi]
  | 1, _ =>
    simp only [if_neg (show ¬ (1 = 0) by decide)]
    rw [elem, elem, nib, nib, ← sbox_bits]
    simp only [ss, ssHalf, V8.get, bitAt_xor, bitAt_and, bitAt_or, bitAt_not _ hi, bitAt_andnot _ _ hi]

theorem lin_bits : ∀ y0 y1 y2 y3 y4 y5 y6 y7 : Bool,
    (let y1 := y1 ^^ y2
     let y3 := y3 ^^ y4
     let y5 := y5 ^^ (y6 ^^ y0)
     let y7 := y7 ^^ y0
     let y0 := y0 ^^ y3
     let y2 := y2 ^^ y5
     let y4 := y4 ^^ (y7 ^^ y1)
     let y6 := y6 ^^ y1
     (BitVec.ofBool y0 ++ BitVec.ofBool y2 ++ BitVec.ofBool y4 ++ BitVec.ofBool y6,
      BitVec.ofBool y1 ++ BitVec.ofBool y3 ++ BitVec.ofBool y5 ++ BitVec.ofBool y7)) =
    L (BitVec.ofBool y0 ++ BitVec.ofBool y2 ++ BitVec.ofBool y4 ++ BitVec.ofBool y6)
      (BitVec.ofBool y1 ++ BitVec.ofBool y3 ++ BitVec.ofBool y5 ++ BitVec.ofBool y7) := by
  decide +kernel

theorem elem_l (y : V8 W128) (i : Nat) : (elem (l y) 0 i, elem (l y) 1 i) = L (elem y 0 i) (elem y 1 i) := by
  simp only [elem, nib, V8.get]
  rw [← lin_bits]
  simp only [l, bitAt_xor]

/-! ### Permutation -/

/-- Rotation of a 7-bit index. -/
def rotl (p : Nat) : Nat := 2 * p % 128 + p / 64

/-- Position of the pair `p` of the specification in the bit-sliced state before round `r`. -/
def tau : Nat → Nat → Nat
  | 0, p => p
  | r + 1, p => tau r (rotl p)

theorem rotl_lt : ∀ p < 128, rotl p < 128 := by decide +kernel

theorem tau_lt (r p : Nat) (hp : p < 128) : tau r p < 128 := by
  induction r generalizing p with
  | zero => exact hp
  | succ r ih => exact ih _ (rotl_lt p hp)

theorem tau_xor : ∀ r < 42, ∀ p < 128, tau r (p ^^^ 1) = tau r p ^^^ 2 ^ (r % 7) := by decide +kernel

theorem tau_42 : ∀ p < 128, tau 42 p = p := by decide +kernel

theorem perm_even : ∀ p < 128, Spec.Jh.permSrc 256 (2 * p) = 2 * rotl p := by decide +kernel

theorem perm_odd : ∀ p < 128, Spec.Jh.permSrc 256 (2 * p + 1) = 2 * (rotl p ^^^ 1) + 1 ∧ rotl p ^^^ 1 < 128 := by decide +kernel

/-! ### Round constants -/

def unpack (x : Nat) : List Spec.Jh.Nib := (List.range 64).map fun i => BitVec.ofNat 4 (x / 16 ^ (63 - i))

set_option maxRecDepth 10000 in
theorem cTab_step : (List.range 41).map (fun r => unpack (cTab.getD (r + 1) 0)) =
    (List.range 41).map fun r => R 64 (fun _ => false) (unpack (cTab.getD r 0)) := by
  decide +kernel

theorem C_eq (r : Nat) (hr : r < 42) : Spec.Jh.C r = unpack (cTab.getD r 0) := by
  induction r with
  | zero => rfl
  | succ r ih =>
    have h := congrArg (fun l => l.getD r []) cTab_step
    simp only [getD_map_range _ _ _ (show r < 41 by omega)] at h
    rw [Spec.Jh.C, ih (by omega), h]

theorem cbit_unpack (x : Nat) {i : Nat} (hi : i < 256) : cbit (unpack x) i = x.testBit (255 - i) := by
  rw [cbit, unpack, getD_map_range _ _ _ (by omega), BitVec.getLsbD_ofNat, show (16 : Nat) = 2 ^ 4 from rfl, ← Nat.pow_mul,
    Nat.testBit_div_two_pow, show 3 - i % 4 + 4 * (63 - i / 4) = 255 - i by omega]
  have : 3 - i % 4 < 4 := by omega
  simp only [this, decide_true, Bool.true_and]

theorem bit_beBytes (x : Nat) {j : Nat} (hj : j < 256) : bit (beBytes 32 x) j = x.testBit (255 - j) := by
  have h : (beBytes 32 x).getD (j / 8) 0 = BitVec.ofNat 8 (x / 2 ^ (8 * (31 - j / 8))) := by
    rw [beBytes, List.getD_eq_getElem?_getD, List.getElem?_reverse (by rw [length_leBytes]; omega), length_leBytes,
      ← List.getD_eq_getElem?_getD, leBytes_eq_map, show 32 - 1 - j / 8 = 31 - j / 8 by omega, getD_map_range _ _ _ (by omega)]
  rw [bit, h, BitVec.getLsbD_ofNat, Nat.testBit_div_two_pow, show 7 - j % 8 + 8 * (31 - j / 8) = 255 - j by omega]
  have : 7 - j % 8 < 8 := by omega
  simp only [this, decide_true, Bool.true_and]

theorem bitAt_wordLE (raw : Bytes) (k : Nat) {i : Nat} (hi : i < 128) : bitAt (wordLE 128 raw k) i = bit raw (128 * k + i) := by
  obtain ⟨h1, h2, h3⟩ := xor7 i hi
  have hb : byteAt (wordLE 128 raw k) (i / 8) = raw.getD (16 * k + i / 8) 0 := by
    rw [wordLE, byteAt_ofLE _ _ (by omega), show 128 / 8 = 16 from rfl, getD_take (by omega), getD_drop]
  have e := congrArg (fun b => b.getLsbD (7 - i % 8)) hb
  simp only [byteAt, BitVec.getLsbD_extractLsb'] at e
  have h4 : 7 - i % 8 < 8 := by omega
  simp only [h4, decide_true, Bool.true_and] at e
  rw [bitAt, bit, show (128 * k + i) / 8 = 16 * k + i / 8 by omega, show (128 * k + i) % 8 = i % 8 by omega, ← e]
  congr 1
  omega

/-- The bit-sliced round constants are the permuted constants of the specification. -/
theorem rc_bits : ∀ r < 42, ∀ p < 128, ∀ b < 2,
    (rcNat.getD r 0).testBit (255 - (128 * b + tau r p)) = (cTab.getD r 0).testBit (255 - (2 * p + b)) := by
  decide +kernel

theorem rc_eq (r : Nat) (hr : r < 42) (p : Nat) (hp : p < 128) (b : Nat) (hb : b < 2) :
    bitAt (rcHalf r b) (tau r p) = cbit (Spec.Jh.C r) (2 * p + b) := by
  have := tau_lt r p hp
  rw [rcHalf, bitAt_wordLE _ _ this, bit_beBytes _ (by omega), rc_bits r hr p hp b hb, C_eq r hr, cbit_unpack _ (by omega)]

/-! ### Rounds -/

/-- The bit-sliced state `y` before round `r` represents the elements `q`. -/
def Rep (r : Nat) (y : V8 W128) (q : List Spec.Jh.Nib) : Prop :=
  ∀ p < 128, ∀ b < 2, q.getD (2 * p + b) 0 = elem y b (tau r p)

theorem round_rep (r : Nat) (hr : r < 42) {y : V8 W128} {q : List Spec.Jh.Nib} (h : Rep r y q) :
    Rep (r + 1) (round y r) (R 256 (cbit (Spec.Jh.C r)) q) := by
  -- after S and L, still in the old arrangement
  have hv : ∀ p < 128, ∀ b < 2, S (cbit (Spec.Jh.C r) (2 * p + b)) (q.getD (2 * p + b) 0) =
      elem (ss y (rcHalf r 0) (rcHalf r 1)) b (tau r p) := by
    intro p hp b hb
    rw [elem_ss _ _ _ _ hb (tau_lt r p hp), h p hp b hb, ← rc_eq r hr p hp b hb]
    match b, hb with
    | 0, _ | 1, _ => rfl
  have hz : ∀ p < 128, (elem (l (ss y (rcHalf r 0) (rcHalf r 1))) 0 (tau r p), elem (l (ss y (rcHalf r 0) (rcHalf r 1))) 1 (tau r p)) =
      L (S (cbit (Spec.Jh.C r) (2 * p)) (q.getD (2 * p) 0)) (S (cbit (Spec.Jh.C r) (2 * p + 1)) (q.getD (2 * p + 1) 0)) := by
    intro p hp
    rw [elem_l, ← hv p hp 0 (by decide), ← hv p hp 1 (by decide), Nat.add_zero]
  have hswap : ∀ i < 128, elem (round y r) 0 i = elem (l (ss y (rcHalf r 0) (rcHalf r 1))) 0 i ∧
      elem (round y r) 1 i = elem (l (ss y (rcHalf r 0) (rcHalf r 1))) 1 (i ^^^ 2 ^ (r % 7)) := by
    intro i hi
    have h7 : r % 7 < 7 := Nat.mod_lt _ (by decide)
    constructor
    · simp only [elem, nib, round, V8.get]
    · simp only [elem, nib, round, V8.get, bitAt_swap _ h7 _ i hi]
  intro p hp b hb
  have hb2 : 2 * p + b < 256 := by omega
  simp only [R]
  rw [getD_map_range _ _ _ hb2]
  match b, hb with
  | 0, _ =>
    have hr2 := rotl_lt p hp
    rw [Nat.add_zero, perm_even p hp, getD_map_range _ _ _ (by omega), if_pos (by omega), getD_map_range _ _ _ (by omega),
      getD_map_range _ _ _ (by omega), ← hz _ hr2, (hswap _ (tau_lt _ _ hp)).1]
    rfl
  | 1, _ =>
    obtain ⟨e, hlt⟩ := perm_odd p hp
    rw [e, getD_map_range _ _ _ (by omega), if_neg (by omega), Nat.add_sub_cancel, getD_map_range _ _ _ (by omega),
      getD_map_range _ _ _ (by omega), ← hz _ hlt, (hswap _ (tau_lt _ _ hp)).2, tau_xor r hr _ (rotl_lt p hp)]
    rfl

theorem rounds_rep (n : Nat) (hn : n ≤ 42) {y : V8 W128} {q : List Spec.Jh.Nib} (h : Rep 0 y q) :
    Rep n ((List.range n).foldl round y) ((List.range n).foldl (fun q r => R 256 (cbit (Spec.Jh.C r)) q) q) := by
  induction n with
  | zero => exact h
  | succ n ih =>
    rw [List.range_succ, List.foldl_append, List.foldl_append]
    exact round_rep n (by omega) (ih (by omega))

/-! ### Bytes -/

/-- The chaining value as bytes (the other view of the union). -/
def bytes (y : V8 W128) : Bytes := bytesOfWordsLE y.toList

theorem length_bytes (y : V8 W128) : (bytes y).length = 128 := by rw [bytes, length_bytesOfWordsLE]; rfl

theorem wordLE_bytes (y : V8 W128) (k : Nat) (hk : k < 8) : wordLE 128 (bytes y) k = y.get k := by
  have := wordLE_append (by decide) y.toList [] (0 : W128) (i := k) (by simpa [V8.toList] using hk)
  rw [List.append_nil] at this
  rw [bytes, this]
  clear this
  match k, hk with
  | 0, _ | 1, _ | 2, _ | 3, _ | 4, _ | 5, _ | 6, _ | 7, _ =>
    simp only [V8.toList, V8.get, List.getD_cons_zero, List.getD_cons_succ]

theorem bit_bytes (y : V8 W128) (j : Nat) (hj : j < 1024) : bit (bytes y) j = bitAt (y.get (j / 128)) (j % 128) := by
  rw [← wordLE_bytes y _ (by omega), bitAt_wordLE _ _ (Nat.mod_lt _ (by decide)), Nat.div_add_mod]

theorem bit_ext {n : Nat} {a b : Bytes} (ha : a.length = n) (hb : b.length = n) (h : ∀ j < 8 * n, bit a j = bit b j) : a = b := by
  apply List.ext_getElem (by omega)
  intro t h1 h2
  apply BitVec.eq_of_getLsbD_eq
  intro i hi
  have := h (8 * t + (7 - i)) (by omega)
  rw [bit, bit, show (8 * t + (7 - i)) / 8 = t by omega, show 7 - (8 * t + (7 - i)) % 8 = i by omega,
    List.getD_eq_getElem?_getD, List.getD_eq_getElem?_getD, List.getElem?_eq_getElem h1, List.getElem?_eq_getElem h2] at this
  exact this

theorem nib_bit (f : Nat → Bool) : ∀ k < 4, (nib f).getLsbD (3 - k) = f k := by
  intro k hk
  have h : ∀ a b c d : Bool, ∀ k < 4, (BitVec.ofBool a ++ BitVec.ofBool b ++ BitVec.ofBool c ++ BitVec.ofBool d).getLsbD (3 - k) =
      [a, b, c, d].getD k false := by decide +kernel
  rw [nib, h _ _ _ _ k hk]
  match k, hk with
  | 0, _ | 1, _ | 2, _ | 3, _ => rfl

theorem byte_bit (f : Nat → Bool) (k : Nat) (hk : k < 8) : (byte f).getLsbD (7 - k) = f k := by
  rw [byte, BitVec.getLsbD_append]
  by_cases h : k < 4
  · rw [if_neg (by omega), show 7 - k - 4 = 3 - k by omega, nib_bit _ k h]
  · rw [if_pos (by omega), show 7 - k = 3 - (k - 4) by omega, nib_bit _ (k - 4) (by omega)]
    congr 1; omega

theorem group_rep (y : V8 W128) : Rep 0 y (group (bytes y)) := by
  intro p hp b hb
  rw [group, getD_map_range _ _ _ (by omega), elem, tau, nib, nib]
  have h : ∀ k < 4, bit (bytes y) ((2 * p + b) / 2 + 128 * ((2 * p + b) % 2) + 256 * k) = bitAt (y.get (2 * k + b)) p := by
    intro k hk
    rw [show (2 * p + b) / 2 = p by omega, show (2 * p + b) % 2 = b by omega, bit_bytes _ _ (by omega),
      show (p + 128 * b + 256 * k) / 128 = 2 * k + b by omega, show (p + 128 * b + 256 * k) % 128 = p by omega]
  rw [h 0 (by decide), h 1 (by decide), h 2 (by decide), h 3 (by decide)]

theorem degroup_rep {y : V8 W128} {q : List Spec.Jh.Nib} (h : Rep 42 y q) : degroup q = bytes y := by
  apply bit_ext (n := 128) (by simp [degroup]) (length_bytes y)
  intro j hj
  rw [bit, degroup, getD_map_range _ _ _ (by omega), byte_bit _ _ (Nat.mod_lt _ (by decide)), Nat.div_add_mod,
    Spec.Jh.degroupBit, h _ (by omega) _ (by omega), tau_42 _ (by omega), elem, nib_bit _ _ (by omega), bit_bytes _ _ hj,
    show 2 * (j / 256) + j / 128 % 2 = j / 128 by omega]

theorem E8_eq (y : V8 W128) : bytes ((List.range 42).foldl round y) = Spec.Jh.E8 (bytes y) := by
  rw [Spec.Jh.E8, degroup_rep (rounds_rep 42 (Nat.le_refl _) (group_rep y))]

theorem bit_xor (a b : Bytes) (j : Nat) (ha : j < 8 * a.length) (hb : j < 8 * b.length) :
    bit (Spec.Jh.xor a b) j = (bit a j ^^ bit b j) := by
  have h1 : j / 8 < a.length := by omega
  have h2 : j / 8 < b.length := by omega
  simp only [bit, Spec.Jh.xor, List.getD_eq_getElem?_getD, List.getElem?_zipWith, List.getElem?_eq_getElem h1,
    List.getElem?_eq_getElem h2, Option.getD_some, BitVec.getLsbD_xor]

theorem bit_append_lt {a b : Bytes} {j : Nat} (h : j < 8 * a.length) : bit (a ++ b) j = bit a j := by
  rw [bit, bit, getD_append_lt (by omega)]

theorem bit_append_ge {a b : Bytes} {j : Nat} (h : 8 * a.length ≤ j) : bit (a ++ b) j = bit b (j - 8 * a.length) := by
  rw [bit, bit, getD_append_ge (by omega), show (j - 8 * a.length) / 8 = j / 8 - a.length by omega,
    show (j - 8 * a.length) % 8 = j % 8 by omega]

theorem bit_take {a : Bytes} {n j : Nat} (h : j < 8 * n) : bit (a.take n) j = bit a j := by
  rw [bit, bit, getD_take (by omega)]

theorem bit_drop (a : Bytes) (n j : Nat) : bit (a.drop n) j = bit a (8 * n + j) := by
  rw [bit, bit, getD_drop, show (8 * n + j) / 8 = n + j / 8 by omega, show (8 * n + j) % 8 = j % 8 by omega]

theorem length_xor {n : Nat} (a b : Bytes) (ha : a.length = n) (hb : b.length = n) : (Spec.Jh.xor a b).length = n := by
  simp [Spec.Jh.xor, ha, hb]

theorem xor_first (y : V8 W128) (d : Bytes) (hd : d.length = 64) :
    bytes ⟨y.x0 ^^^ wordLE 128 d 0, y.x1 ^^^ wordLE 128 d 1, y.x2 ^^^ wordLE 128 d 2, y.x3 ^^^ wordLE 128 d 3,
      y.x4, y.x5, y.x6, y.x7⟩ = Spec.Jh.xor ((bytes y).take 64) d ++ (bytes y).drop 64 := by
  have hl := length_bytes y
  have ht : ((bytes y).take 64).length = 64 := by simp [hl]
  have hx := length_xor _ _ ht hd
  apply bit_ext (n := 128) (length_bytes _) (by simp [hx, hl])
  intro j hj
  rw [bit_bytes _ _ hj]
  have hm : j % 128 < 128 := Nat.mod_lt _ (by decide)
  by_cases h : j < 512
  · rw [bit_append_lt (by omega), bit_xor _ _ _ (by omega) (by omega), bit_take h, bit_bytes _ _ hj]
    have hk : j / 128 < 4 := by omega
    have e : bit d j = bitAt (wordLE 128 d (j / 128)) (j % 128) := by rw [bitAt_wordLE _ _ hm, Nat.div_add_mod]
    rw [e, ← bitAt_xor]
    generalize j / 128 = k at hk
    match k, hk with
    | 0, _ | 1, _ | 2, _ | 3, _ => rfl
  · rw [bit_append_ge (by omega), bit_drop, hx, show 8 * 64 + (j - 8 * 64) = j by omega, bit_bytes _ _ hj]
    have hk : 4 ≤ j / 128 := by omega
    have hk2 : j / 128 < 8 := by omega
    generalize j / 128 = k at hk hk2
    match k, hk, hk2 with
    | 4, _, _ | 5, _, _ | 6, _, _ | 7, _, _ => rfl

theorem xor_last (y : V8 W128) (d : Bytes) (hd : d.length = 64) :
    bytes ⟨y.x0, y.x1, y.x2, y.x3, y.x4 ^^^ wordLE 128 d 0, y.x5 ^^^ wordLE 128 d 1, y.x6 ^^^ wordLE 128 d 2,
      y.x7 ^^^ wordLE 128 d 3⟩ = (bytes y).take 64 ++ Spec.Jh.xor ((bytes y).drop 64) d := by
  have hl := length_bytes y
  have ht : ((bytes y).take 64).length = 64 := by simp [hl]
  have hdl : ((bytes y).drop 64).length = 64 := by simp [hl]
  have hx := length_xor _ _ hdl hd
  apply bit_ext (n := 128) (length_bytes _) (by simp [hx, hl])
  intro j hj
  rw [bit_bytes _ _ hj]
  have hm : j % 128 < 128 := Nat.mod_lt _ (by decide)
  by_cases h : j < 512
  · rw [bit_append_lt (by omega), bit_take h, bit_bytes _ _ hj]
    have hk : j / 128 < 4 := by omega
    generalize j / 128 = k at hk
    match k, hk with
    | 0, _ | 1, _ | 2, _ | 3, _ => rfl
  · rw [bit_append_ge (by omega), ht, bit_xor _ _ _ (by omega) (by omega), bit_drop, show 8 * 64 + (j - 8 * 64) = j by omega,
      bit_bytes _ _ hj]
    have e : bit d (j - 8 * 64) = bitAt (wordLE 128 d (j / 128 - 4)) (j % 128) := by
      rw [bitAt_wordLE _ _ hm, show 128 * (j / 128 - 4) + j % 128 = j - 8 * 64 by omega]
    rw [e, ← bitAt_xor]
    have hk : 4 ≤ j / 128 := by omega
    have hk2 : j / 128 < 8 := by omega
    generalize j / 128 = k at hk hk2
    match k, hk, hk2 with
    | 4, _, _ | 5, _, _ | 6, _, _ | 7, _, _ => rfl

theorem f8_eq (y : V8 W128) (d : Bytes) (hd : d.length = 64) : bytes (f8 y d) = Spec.Jh.F8 (bytes y) d := by
  simp only [f8, Spec.Jh.F8]
  rw [xor_last _ _ hd, E8_eq, xor_first _ _ hd]

theorem foldl_f8 (l : List Bytes) (hl : ∀ b ∈ l, b.length = 64) (y : V8 W128) :
    bytes (l.foldl f8 y) = l.foldl Spec.Jh.F8 (bytes y) := by
  induction l generalizing y with
  | nil => rfl
  | cons x l ih =>
    rw [List.foldl_cons, List.foldl_cons, ih (fun b hb => hl b (List.mem_cons_of_mem _ hb)), f8_eq _ _ (hl x List.mem_cons_self)]

/-! ### Initial values -/

theorem bytes_new (b : Bytes) (h : b.length = 128) : bytes (compressorNew b) = b := by
  have e1 : (V8.ofFn (wordLE 128 b)).toList = (List.range 8).map (wordLE 128 b) := rfl
  rw [bytes, compressorNew, e1, bytesOfWordsLE_range (by decide) _ _ (by omega), List.take_of_length_le (by omega)]

/-- The four initial values are the compressed digest sizes. -/
theorem iv_words : ∀ nh ∈ [(28, h224Nat), (32, h256Nat), (48, h384Nat), (64, h512Nat)],
    compressorNew (beBytes 128 nh.2) =
      f8 (compressorNew (beBytes 2 (8 * nh.1) ++ List.replicate 126 0)) (List.replicate 64 0) := by
  decide +kernel

theorem iv_eq (n x : Nat) (h : (n, x) ∈ [(28, h224Nat), (32, h256Nat), (48, h384Nat), (64, h512Nat)]) :
    bytes (compressorNew (beBytes 128 x)) = Spec.Jh.iv n := by
  rw [iv_words _ h, f8_eq _ _ (by simp), bytes_new _ (by simp)]; rfl

/-! ### Interface laws -/

theorem lawful : varCore.Lawful where
  bs_pos := by decide
  nil := fun s => by simp [varCore, updateBlocks]
  app := fun s x y => by simp [varCore, updateBlocks, BitVec.ofNat_add, BitVec.add_assoc]
  fin_congr := fun s b b' h h' hc => by
    have hpos : b.pos = b'.pos := pos_congr h h' hc
    simp only [varCore, finalizeFull]
    rw [digestPad_congr (bs := 64) h h' hc (suffix := []) (by simp), hpos]
    rw [digestPad_congr (bs := 64) h h' hc (by simp)]
    simp only [BlockBuffer.content] at hc
    simp only [BlockBuffer.padWithZeros]
    rw [hpos] at hc ⊢
    rw [hc]

theorem wf_zero (data : Bytes) (h : data.length = 64) : BlockBuffer.WF .eager 64 ⟨data, 0⟩ := ⟨h, (by decide : 0 < 64)⟩

theorem length16 (L : Nat) (h : 8 * L < 2 ^ 64) : beBytes 16 (8 * L) = List.replicate 8 0 ++ beBytes 8 (8 * L) := by
  rw [show (16 : Nat) = 8 + 8 from rfl, beBytes_append, Nat.div_eq_of_lt (Nat.lt_of_lt_of_le h (by decide)), beBytes_zero]

theorem digest_eq {N : Nat} {s0 : State} (h0 : new N = some s0) (m : Bytes) (hm : 8 * m.length < 2 ^ 64) :
    (varCore.ctWith N s0).digest m = Spec.Jh.hash N m := by
  have hs : bytes s0.state = Spec.Jh.iv N ∧ s0.blockLen = 0 ∧ N ≤ 64 := by
    unfold new at h0
    split at h0
    · injection h0 with h0; subst h0; exact ⟨iv_eq _ _ (by decide), rfl, by decide⟩
    · injection h0 with h0; subst h0; exact ⟨iv_eq _ _ (by decide), rfl, by decide⟩
    · injection h0 with h0; subst h0; exact ⟨iv_eq _ _ (by decide), rfl, by decide⟩
    · injection h0 with h0; subst h0; exact ⟨iv_eq _ _ (by decide), rfl, by decide⟩
    · cases h0
  obtain ⟨b, h1, h2, h3, h4⟩ := Core.digest_eager (lawful.ct N s0) rfl m
  rw [h4]
  simp only [varCore, VarCore.ctWith] at h1 h2 h3 ⊢
  have hlen : beBytes 8 ((((0 : W64) + BitVec.ofNat 64 (m.length / 64)) * 64 + BitVec.ofNat 64 (m.length % 64)) * 8).toNat =
      beBytes 8 (8 * m.length) := by
    rw [show (0 : W64) = 0#64 from rfl, BitVec.zero_add, show (64 : W64) = BitVec.ofNat 64 64 from rfl,
      show (8 : W64) = BitVec.ofNat 64 8 from rfl, ← BitVec.ofNat_mul, ← BitVec.ofNat_add, ← BitVec.ofNat_mul,
      beBytes_counter (by decide)]
    congr 1; omega
  have key : (if m.length % 64 = 0 then
      BlockBuffer.digestPad 64 b 0x80 (beBytes 8 (8 * m.length)) f8 ((blocks 64 (m.length / 64) m).foldl f8 s0.state)
      else BlockBuffer.digestPad 64 (b.padWithZeros 64).2 0 (beBytes 8 (8 * m.length)) f8
        (BlockBuffer.digestPad 64 b 0x80 [] f8 ((blocks 64 (m.length / 64) m).foldl f8 s0.state))) =
      (chunks 64 (Spec.Jh.pad m)).foldl f8 s0.state := by
    by_cases hz : m.length % 64 = 0
    · rw [if_pos hz]
      refine (md_finalize (bs := 64) (by decide) h1 (delim := 0x80) (by simp) f8 s0.state m h2).trans ?_
      congr 2
      rw [Spec.mdPad, Spec.Jh.pad, Spec.zeroFill, length16 _ hm, length_beBytes, ← List.append_assoc]
      congr 1
      rw [List.append_assoc _ _ (List.replicate 8 (0 : Byte)), List.replicate_append_replicate]
      congr 2; omega
    · rw [if_neg hz, show (BlockBuffer.padWithZeros 64 b).2 = ⟨b.data.take b.pos ++ List.replicate (64 - b.pos) 0, 0⟩ from rfl,
        BlockBuffer.digestPad_spec (wf_zero _ ?_) (by simp)]
      · rw [show BlockBuffer.digestPad 64 b 0x80 [] f8 ((blocks 64 (m.length / 64) m).foldl f8 s0.state) = _ from
          md_finalize (bs := 64) (by decide) h1 (delim := 0x80) (suffix := []) (by simp) f8 s0.state m h2,
          ← List.foldl_append, ← chunks_append (n := 64) (by decide) _ (length_mdPad_dvd (by decide))]
        congr 2
        simp only [BlockBuffer.content, List.take_zero]
        rw [Spec.mdPad, Spec.mdPad, Spec.Jh.pad, Spec.zeroFill, Spec.zeroFill, length16 _ hm, length_beBytes]
        simp only [List.length_nil, List.append_nil, List.nil_append, List.append_assoc]
        congr 2
        rw [show ∀ x : Bytes, [(0 : Byte)] ++ x = List.replicate 1 0 ++ x from fun _ => rfl]
        simp only [← List.append_assoc, List.replicate_append_replicate]
        congr 2; omega
      · simp only [List.length_append, List.length_replicate]
        have := h1.length_content
        simp only [BlockBuffer.content] at this
        rw [this, h3]
        have := Nat.mod_lt m.length (show 64 > 0 by decide)
        omega
  simp only [finalizeFull, updateBlocks, h3, length_blocks, hs.2.1, hlen]
  rw [key]
  rw [show ∀ y : V8 W128, bytesOfWordsLE y.toList = bytes y from fun _ => rfl, truncate]
  have hl : ∀ y : V8 W128, ((bytes y).drop 64).length = 64 := fun y => by simp [length_bytes]
  rw [hl, List.drop_drop, foldl_f8 _ (fun b hb => length_of_mem_chunks hb), hs.1, Spec.Jh.hash]
  congr 1
  have := hs.2.2
  omega

end Jh
end Hashes
