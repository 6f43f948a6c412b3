import Verif.Proof.PiDigits
import Verif.Spec.Pi
import Verif.Spec.Fsb
import Verif.Model.FsbPi
import Verif.Proof.Groestl
import Mathlib.Algebra.Order.Floor.Semifield
/-
Bit `i` of fsb/src/pi.bin is the parity of decimal `i` of π.
-/
namespace Hashes.Pi

/-- Parities of the last `L` decimal digits, as a binary number. -/
def par (L : Nat) : Nat → Nat :=
  Nat.rec (fun _ => 0) (fun _ r n => Nat.add (Nat.mod n 2) (Nat.mul 2 (r (Nat.div n 10)))) L

theorem par_zero (n : Nat) : par 0 n = 0 := rfl
theorem par_succ (L n : Nat) : par (L + 1) n = n % 2 + 2 * par L (n / 10) := rfl

/-- The same, seven digits at a time. -/
def par7 (L : Nat) : Nat → Nat :=
  Nat.rec (fun _ => 0) (fun _ r n => Nat.add (Nat.mod n 2) (Nat.mul 2 (Nat.add (Nat.mod (Nat.div n 10) 2) (Nat.mul 2 (Nat.add (Nat.mod (Nat.div n 100) 2) (Nat.mul 2 (Nat.add (Nat.mod (Nat.div n 1000) 2) (Nat.mul 2 (Nat.add (Nat.mod (Nat.div n 10000) 2) (Nat.mul 2 (Nat.add (Nat.mod (Nat.div n 100000) 2) (Nat.mul 2 (Nat.add (Nat.mod (Nat.div n 1000000) 2) (Nat.mul 2 (r (Nat.div n 10000000)))))))))))))))) L

theorem par7_eq (L n : Nat) : par7 L n = par (7 * L) n := by
  induction L generalizing n with
  | zero => rfl
  | succ L ih =>
    have h : par7 (L + 1) n = n % 2 + 2 * (n / 10 % 2 + 2 * (n / 100 % 2 + 2 * (n / 1000 % 2 + 2 * (n / 10000 % 2 +
      2 * (n / 100000 % 2 + 2 * (n / 1000000 % 2 + 2 * par7 L (n / 10000000))))))) := rfl
    rw [h, ih, Nat.mul_succ]
    simp only [par_succ, Nat.div_div_eq_div_mul, Nat.reduceMul]

/-- The same by halving. -/
def parHalf (L h : Nat) : Nat → Nat :=
  Nat.rec (par7 L) (fun h r n => Nat.add (r (Nat.mod n (10 ^ (7 * L * 2 ^ h)))) (Nat.mul (2 ^ (7 * L * 2 ^ h)) (r (Nat.div n (10 ^ (7 * L * 2 ^ h)))))) h

theorem parHalf_zero (L n : Nat) : parHalf L 0 n = par7 L n := rfl
theorem parHalf_succ (L h n : Nat) : parHalf L (h + 1) n =
    parHalf L h (n % 10 ^ (7 * L * 2 ^ h)) + 2 ^ (7 * L * 2 ^ h) * parHalf L h (n / 10 ^ (7 * L * 2 ^ h)) := rfl

theorem par_add (L M n : Nat) : par (L + M) n = par L n + 2 ^ L * par M (n / 10 ^ L) := by
  induction L generalizing n with
  | zero => simp [par_zero]
  | succ L ih =>
    rw [Nat.add_right_comm, par_succ, par_succ, ih, Nat.div_div_eq_div_mul, ← Nat.pow_succ', Nat.pow_succ 2]
    ring

theorem par_mod (L M n : Nat) (h : L ≤ M) : par L (n % 10 ^ M) = par L n := by
  induction L generalizing n M with
  | zero => rfl
  | succ L ih =>
    obtain ⟨M, rfl⟩ : ∃ k, M = k + 1 := ⟨M - 1, by omega⟩
    rw [par_succ, par_succ]
    have h1 : n % 10 ^ (M + 1) % 2 = n % 2 := Nat.mod_mod_of_dvd _ (Dvd.dvd.trans (by decide) (Dvd.intro_left _ rfl : 10 ∣ 10 ^ (M + 1)))
    have h2 : n % 10 ^ (M + 1) / 10 = n / 10 % 10 ^ M := by
      rw [Nat.pow_succ, Nat.mul_comm, Nat.mod_mul_right_div_self]
    rw [h1, h2, ih M _ (by omega)]

theorem parHalf_eq (L h n : Nat) : parHalf L h n = par (7 * L * 2 ^ h) n := by
  induction h generalizing n with
  | zero => rw [parHalf_zero, par7_eq, Nat.pow_zero, Nat.mul_one]
  | succ h ih =>
    rw [parHalf_succ, ih, ih, par_mod _ _ _ (Nat.le_refl _), show 7 * L * 2 ^ (h + 1) = 7 * L * 2 ^ h + 7 * L * 2 ^ h by rw [Nat.pow_succ]; ring,
      par_add]

theorem testBit_par (L n j : Nat) (hj : j < L) : (par L n).testBit j = decide (n / 10 ^ j % 2 = 1) := by
  induction j generalizing L n with
  | zero =>
    obtain ⟨L, rfl⟩ : ∃ k, L = k + 1 := ⟨L - 1, by omega⟩
    rw [par_succ, Nat.testBit_zero, Nat.pow_zero, Nat.div_one]
    congr 2
    omega
  | succ j ih =>
    obtain ⟨L, rfl⟩ : ∃ k, L = k + 1 := ⟨L - 1, by omega⟩
    rw [par_succ, Nat.testBit_succ, show (n % 2 + 2 * par L (n / 10)) / 2 = par L (n / 10) by omega, ih L _ (by omega),
      Nat.div_div_eq_div_mul, ← Nat.pow_succ']

/-- One row of decimals against one row of the file. -/
def rowOk (r b : Nat) : Bool := Nat.ble (Nat.succ r) (10 ^ 1064) && Nat.beq (parHalf 19 3 r) b

def rowsOk : List Nat → List Nat → Bool
  | r :: rs, b :: bs => rowOk r b && rowsOk rs bs
  | [], [] => true
  | _, _ => false

set_option maxRecDepth 100000 in
theorem rowsOk0 : rowsOk rows0 Fsb.piRows0 = true := by decide +kernel
set_option maxRecDepth 100000 in
theorem rowsOk1 : rowsOk rows1 Fsb.piRows1 = true := by decide +kernel
set_option maxRecDepth 100000 in
theorem rowsOk2 : rowsOk rows2 Fsb.piRows2 = true := by decide +kernel
set_option maxRecDepth 100000 in
theorem rowsOk3 : rowsOk rows3 Fsb.piRows3 = true := by decide +kernel
set_option maxRecDepth 100000 in
theorem rowsOk4 : rowsOk rows4 Fsb.piRows4 = true := by decide +kernel
set_option maxRecDepth 100000 in
theorem rowsOk5 : rowsOk rows5 Fsb.piRows5 = true := by decide +kernel
set_option maxRecDepth 100000 in
theorem rowsOk6 : rowsOk rows6 Fsb.piRows6 = true := by decide +kernel
set_option maxRecDepth 100000 in
theorem rowsOk7 : rowsOk rows7 Fsb.piRows7 = true := by decide +kernel
set_option maxRecDepth 100000 in
theorem rowsOk8 : rowsOk rows8 Fsb.piRows8 = true := by decide +kernel
set_option maxRecDepth 100000 in
theorem rowsOk9 : rowsOk rows9 Fsb.piRows9 = true := by decide +kernel
set_option maxRecDepth 100000 in
theorem rowsOk10 : rowsOk rows10 Fsb.piRows10 = true := by decide +kernel
set_option maxRecDepth 100000 in
theorem rowsOk11 : rowsOk rows11 Fsb.piRows11 = true := by decide +kernel
set_option maxRecDepth 100000 in
theorem rowsOk12 : rowsOk rows12 Fsb.piRows12 = true := by decide +kernel
set_option maxRecDepth 100000 in
theorem rowsOk13 : rowsOk rows13 Fsb.piRows13 = true := by decide +kernel
set_option maxRecDepth 100000 in
theorem rowsOk14 : rowsOk rows14 Fsb.piRows14 = true := by decide +kernel
set_option maxRecDepth 100000 in
theorem rowsOk15 : rowsOk rows15 Fsb.piRows15 = true := by decide +kernel

/-! Rows as digits to a large base. -/

theorem horner_nil (b a : Nat) : horner b [] a = a := rfl
theorem horner_cons (b r a : Nat) (l : List Nat) : horner b (r :: l) a = horner b l (a * b + r) := rfl

theorem horner_append (b a : Nat) (l m : List Nat) : horner b (l ++ m) a = horner b m (horner b l a) := by
  simp only [horner, List.foldl_append]

theorem horner_shift (b a : Nat) (l : List Nat) : horner b l a = a * b ^ l.length + horner b l 0 := by
  induction l generalizing a with
  | nil => simp [horner_nil]
  | cons r l ih =>
    rw [horner_cons, horner_cons, ih, ih (0 * b + r), List.length_cons, Nat.pow_succ]
    ring

theorem horner_lt (b : Nat) (l : List Nat) (h : ∀ r ∈ l, r < b) : horner b l 0 < b ^ l.length := by
  induction l with
  | nil => simp [horner_nil]
  | cons r l ih =>
    rw [horner_cons, horner_shift, List.length_cons, Nat.pow_succ]
    have h1 := h r (by simp)
    have h2 := ih fun x hx => h x (by simp [hx])
    have h3 : (r + 1) * b ^ l.length ≤ b * b ^ l.length := Nat.mul_le_mul_right _ h1
    rw [Nat.add_mul, Nat.one_mul] at h3
    rw [Nat.zero_mul, Nat.zero_add, Nat.mul_comm (b ^ l.length)]
    omega

/-- Rows of rows. -/
theorem horner_flatten (b n a : Nat) (l : List (List Nat)) (h : ∀ x ∈ l, x.length = n) :
    horner (b ^ n) (l.map fun x => horner b x 0) a = horner b l.flatten a := by
  induction l generalizing a with
  | nil => rfl
  | cons x l ih =>
    rw [List.map_cons, horner_cons, ih _ fun y hy => h y (by simp [hy]), List.flatten_cons, horner_append, horner_shift b a x, h x (by simp)]

/-- Digit `i` from the front. -/
theorem horner_div (b a i n : Nat) (l : List Nat) (hn : l.length = n) (h : ∀ r ∈ l, r < b) (hi : i < l.length) :
    ∃ q, horner b l a / b ^ (n - 1 - i) = q * b + l[i] := by
  subst hn
  refine ⟨horner b (l.take i) a, ?_⟩
  have e : l = l.take i ++ l[i] :: l.drop (i + 1) := by rw [List.cons_getElem_drop_succ, List.take_append_drop]
  conv_lhs => rw [e]
  rw [horner_append, horner_cons, horner_shift]
  have hl : (l.take i ++ l[i] :: l.drop (i + 1)).length - 1 - i = (l.drop (i + 1)).length := by
    rw [← e, List.length_drop]; omega
  rw [hl]
  have hlt : horner b (l.drop (i + 1)) 0 < b ^ (l.drop (i + 1)).length := horner_lt b _ fun r hr => h r (List.mem_of_mem_drop hr)
  have hpos : 0 < b ^ (l.drop (i + 1)).length := by omega
  rw [Nat.add_comm, Nat.add_mul_div_right _ _ hpos, Nat.div_eq_of_lt hlt, Nat.zero_add]

theorem rowsOk_get {rs bs : List Nat} (h : rowsOk rs bs = true) : rs.length = bs.length ∧
    ∀ i (h1 : i < rs.length) (h2 : i < bs.length), rs[i] < 10 ^ 1064 ∧ bs[i] = par 1064 rs[i] := by
  induction rs generalizing bs with
  | nil =>
    cases bs with
    | nil => exact ⟨rfl, fun i h1 => absurd h1 (by simp)⟩
    | cons b bs => simp [rowsOk] at h
  | cons r rs ih =>
    cases bs with
    | nil => simp [rowsOk] at h
    | cons b bs =>
      rw [rowsOk, Bool.and_eq_true, rowOk, Bool.and_eq_true, Nat.ble_eq] at h
      obtain ⟨h1, h2⟩ := ih h.2
      refine ⟨by rw [List.length_cons, List.length_cons, h1], fun i hi hi' => ?_⟩
      cases i with
      | zero => exact ⟨h.1.1, by
          rw [List.getElem_cons_zero, List.getElem_cons_zero, ← Nat.eq_of_beq_eq_true h.1.2, parHalf_eq, show 7 * 19 * 2 ^ 3 = 1064 from rfl]⟩
      | succ i => exact h2 i (Nat.lt_of_succ_lt_succ hi) (Nat.lt_of_succ_lt_succ hi')

theorem rowsOk_append {r1 b1 r2 b2 : List Nat} (h1 : rowsOk r1 b1 = true) (h2 : rowsOk r2 b2 = true) :
    rowsOk (r1 ++ r2) (b1 ++ b2) = true := by
  induction r1 generalizing b1 with
  | nil =>
    cases b1 with
    | nil => exact h2
    | cons b bs => simp [rowsOk] at h1
  | cons r rs ih =>
    cases b1 with
    | nil => simp [rowsOk] at h1
    | cons b bs =>
      rw [rowsOk, Bool.and_eq_true] at h1
      rw [List.cons_append, List.cons_append, rowsOk, h1.1, ih h1.2, Bool.and_self]

theorem rowsOk_flatten : ∀ {rs bs : List (List Nat)}, List.Forall₂ (fun r b => rowsOk r b = true) rs bs →
    rowsOk rs.flatten bs.flatten = true
  | _, _, .nil => rfl
  | _, _, .cons h t => by rw [List.flatten_cons, List.flatten_cons]; exact rowsOk_append h (rowsOk_flatten t)

theorem rowsOk_all : rowsOk allRows.flatten Fsb.piRows.flatten = true := by
  refine rowsOk_flatten ?_
  rw [allRows, Fsb.piRows]
  exact .cons rowsOk0 (.cons rowsOk1 (.cons rowsOk2 (.cons rowsOk3 (.cons rowsOk4 (.cons rowsOk5 (.cons rowsOk6 (.cons rowsOk7
    (.cons rowsOk8 (.cons rowsOk9 (.cons rowsOk10 (.cons rowsOk11 (.cons rowsOk12 (.cons rowsOk13 (.cons rowsOk14
    (.cons rowsOk15 .nil)))))))))))))))

theorem allRows_len : ∀ x ∈ allRows, x.length = 128 := by
  have : (allRows.all fun x => Nat.beq x.length 128) = true := by decide +kernel
  rw [List.all_eq_true] at this
  exact fun x hx => Nat.eq_of_beq_eq_true (this x hx)

theorem flatten_len : allRows.flatten.length = 2048 := by decide +kernel

set_option exponentiation.threshold 200000 in
theorem digits_eq : digits = horner (10 ^ 1064) allRows.flatten 3 := by
  rw [← horner_flatten (10 ^ 1064) 128 3 allRows allRows_len, digits, Nat.pow_mul]

set_option exponentiation.threshold 2000 in
/-- Digit `t` of row `i`, as digit of the whole number. -/
theorem digits_digit (i t : Nat) (hi : i < 2048) (ht : t < 1064) :
    digits / 10 ^ (D - 1 - (1064 * i + t)) % 10 =
      (allRows.flatten[i]'(by rw [flatten_len]; exact hi)) / 10 ^ (1063 - t) % 10 := by
  have hr : ∀ r ∈ allRows.flatten, r < 10 ^ 1064 := by
    intro r hr
    obtain ⟨j, hj, rfl⟩ := List.getElem_of_mem hr
    obtain ⟨h1, h2⟩ := rowsOk_get rowsOk_all
    exact (h2 j hj (by rw [← h1]; exact hj)).1
  obtain ⟨q, hq⟩ := horner_div (10 ^ 1064) 3 i 2048 allRows.flatten flatten_len hr (by rw [flatten_len]; exact hi)
  rw [← digits_eq, ← Nat.pow_mul] at hq
  have he : D - 1 - (1064 * i + t) = 1064 * (2048 - 1 - i) + (1063 - t) := by
    show 2179072 - 1 - (1064 * i + t) = _
    omega
  rw [he, Nat.pow_add, ← Nat.div_div_eq_div_mul, hq]
  generalize (allRows.flatten[i]'(by rw [flatten_len]; exact hi)) = r
  rw [show (10 : Nat) ^ 1064 = 10 ^ (1064 - (1063 - t) - 1) * 10 * 10 ^ (1063 - t) by
    rw [← Nat.pow_succ, ← Nat.pow_add]; congr 1; omega]
  rw [← Nat.mul_assoc, Nat.add_comm, Nat.add_mul_div_right _ _ (Nat.pow_pos (by decide))]
  generalize r / 10 ^ (1063 - t) = z
  generalize 10 ^ (1064 - (1063 - t) - 1) = y
  rw [← Nat.mul_assoc]
  omega

theorem digits_parity (i t : Nat) (hi : i < 2048) (ht : t < 1064) :
    digits / 10 ^ (D - 1 - (1064 * i + t)) % 2 =
      (allRows.flatten[i]'(by rw [flatten_len]; exact hi)) / 10 ^ (1063 - t) % 2 := by
  have h := digits_digit i t hi ht
  rw [← Nat.mod_mod_of_dvd _ (by decide : 2 ∣ 10), h, Nat.mod_mod_of_dvd _ (by decide : 2 ∣ 10)]

/-- The decimals from the whole number. -/
theorem floor_pi (i : Nat) (hi : i < D) : ⌊Real.pi * 10 ^ (i + 1)⌋₊ = digits / 10 ^ (D - 1 - i) := by
  obtain ⟨h1, h2⟩ := pi_bounds (10 ^ D) rfl
  obtain ⟨k, hk⟩ : ∃ k, k = D - 1 - i := ⟨_, rfl⟩
  have hD : D = (i + 1) + k := by omega
  rw [← hk]
  generalize D = d at *
  subst hD
  have hp : (0 : ℝ) < 10 ^ k := by positivity
  have hpi : (0 : ℝ) ≤ Real.pi * ((10 ^ (i + 1 + k) : ℕ) : ℝ) := by positivity
  have hf : ⌊Real.pi * ((10 ^ (i + 1 + k) : ℕ) : ℝ)⌋₊ = digits := (Nat.floor_eq_iff hpi).2 ⟨h1, h2⟩
  rw [← hf, ← Nat.floor_div_natCast]
  congr 1
  push_cast
  rw [pow_add (10 : ℝ) (i + 1) k]
  field_simp

theorem bit_beBytes (n x t : Nat) (ht : t < 8 * n) : Spec.Fsb.bit (beBytes n x) t = x.testBit (8 * n - 1 - t) := by
  rw [Spec.Fsb.bit, Groestl.getD_beBytes _ _ _ (by omega), BitVec.getLsbD_ofNat, Nat.testBit_div_two_pow]
  rw [decide_eq_true (by omega), Bool.true_and]
  congr 1
  omega

theorem bit_flatMap (n i t : Nat) (l : List Nat) (hi : i < l.length) (ht : t < 8 * n) :
    Spec.Fsb.bit (l.flatMap (beBytes n)) (8 * n * i + t) = Spec.Fsb.bit (beBytes n l[i]) t := by
  induction l generalizing i with
  | nil => exact absurd hi (by simp)
  | cons x l ih =>
    rw [List.flatMap_cons]
    cases i with
    | zero =>
      rw [Nat.mul_zero, Nat.zero_add, List.getElem_cons_zero, Spec.Fsb.bit, Spec.Fsb.bit, List.getD_eq_getElem?_getD, List.getD_eq_getElem?_getD,
        List.getElem?_append_left (by rw [length_beBytes]; omega)]
    | succ i =>
      rw [List.getElem_cons_succ, ← ih i (Nat.lt_of_succ_lt_succ hi), Spec.Fsb.bit, Spec.Fsb.bit,
        show 8 * n * (i + 1) + t = 8 * n * i + t + 8 * n by ring]
      rw [show (8 * n * i + t + 8 * n) / 8 = (8 * n * i + t) / 8 + n by omega, show (8 * n * i + t + 8 * n) % 8 = (8 * n * i + t) % 8 by omega,
        List.getD_eq_getElem?_getD, List.getD_eq_getElem?_getD, List.getElem?_append_right (by rw [length_beBytes]; omega), length_beBytes, Nat.add_sub_cancel]

theorem length_piBin : Fsb.piBin.length = 272384 := by
  have h := (rowsOk_get rowsOk_all).1
  rw [flatten_len] at h
  rw [Fsb.piBin, List.length_flatMap]
  simp only [length_beBytes, List.map_const', List.sum_replicate, ← h, smul_eq_mul]

/-- Bit `i` of pi.bin is the parity of decimal `i` of π. -/
theorem bit_piBin (i : Nat) (hi : i < 2179072) : Spec.Fsb.bit Fsb.piBin i = decide (Spec.Pi.decimal i % 2 = 1) := by
  obtain ⟨h1, h2⟩ := rowsOk_get rowsOk_all
  rw [flatten_len] at h1
  have hq : i / 1064 < 2048 := by omega
  have ht : i % 1064 < 1064 := Nat.mod_lt _ (by decide)
  have h3 := (h2 (i / 1064) (by rw [flatten_len]; exact hq) (by rw [← h1]; exact hq)).2
  have hb := bit_flatMap 133 (i / 1064) (i % 1064) Fsb.piRows.flatten (by rw [← h1]; exact hq) (by omega)
  rw [show 8 * 133 * (i / 1064) + i % 1064 = i by omega] at hb
  rw [Fsb.piBin, hb, bit_beBytes _ _ _ (by omega), h3, testBit_par _ _ _ (by omega), Spec.Pi.decimal, floor_pi i hi,
    Nat.mod_mod_of_dvd _ (by decide : 2 ∣ 10)]
  have hd := digits_parity (i / 1064) (i % 1064) hq ht
  rw [Nat.div_add_mod] at hd
  rw [hd, show 8 * 133 - 1 - i % 1064 = 1063 - i % 1064 by omega]

end Hashes.Pi
