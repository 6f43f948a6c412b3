import Verif.Spec.Reals
import Verif.Spec.Fips180
import Verif.Proof.PiParity
import Mathlib.Analysis.SpecialFunctions.Trigonometric.Series
/- Integer parts of roots, sines and digits of π by integer arithmetic. -/
namespace Hashes.Reals
open Spec.Reals

/-! Primes -/

theorem isPrime_iff (n : ℕ) : Spec.isPrime n = true ↔ Nat.Prime n := by
  rw [Spec.isPrime, Bool.and_eq_true, decide_eq_true_eq, List.all_eq_true, Nat.prime_def_lt]
  refine and_congr_right fun h2 => ?_
  constructor
  · intro h m hm hd
    have := h m (List.mem_range.2 hm)
    rw [Bool.or_eq_true, decide_eq_true_eq, decide_eq_true_eq] at this
    rcases this with h1 | h1
    · rcases Nat.eq_zero_or_pos m with rfl | h0
      · rw [Nat.zero_dvd] at hd; omega
      · omega
    · exact absurd (Nat.mod_eq_zero_of_dvd hd) h1
  · intro h d hd
    rw [Bool.or_eq_true, decide_eq_true_eq, decide_eq_true_eq]
    by_cases hd2 : d < 2
    · exact Or.inl hd2
    · refine Or.inr fun h0 => ?_
      have := h d (List.mem_range.1 hd) (Nat.dvd_of_mod_eq_zero h0)
      omega

theorem nth_filter (p : ℕ → Prop) [DecidablePred p] (n i : ℕ) (hi : i < ((List.range n).filter p).length) :
    ((List.range n).filter p)[i] = Nat.nth p i := by
  induction n with
  | zero => simp at hi
  | succ n ih =>
    have hc : ((List.range n).filter p).length = Nat.count p n := by
      rw [Nat.count, List.countP_eq_length_filter]
    by_cases hp : p n
    · have e : (List.range (n + 1)).filter p = (List.range n).filter p ++ [n] := by
        rw [List.range_succ, List.filter_append, List.filter_singleton]; simp [hp]
      simp only [e] at hi ⊢
      by_cases h : i < ((List.range n).filter p).length
      · rw [List.getElem_append_left h, ih h]
      · have hi' : i = ((List.range n).filter p).length := by
          rw [List.length_append, List.length_singleton] at hi; omega
        rw [List.getElem_append_right (by omega)]
        rw [List.getElem_singleton, hi', hc, Nat.nth_count hp]
    · have e : (List.range (n + 1)).filter p = (List.range n).filter p := by
        rw [List.range_succ, List.filter_append, List.filter_singleton]; simp [hp]
      simp only [e] at hi ⊢
      exact ih hi

theorem primes_length : Spec.primes.length = 80 := by decide +kernel

theorem prime_eq (i : ℕ) (hi : i < 80) : Spec.primes.getD i 0 = prime i := by
  have e : Spec.primes = (List.range 410).filter Nat.Prime := by
    rw [Spec.primes]
    exact List.filter_congr fun x _ => by rw [Bool.eq_iff_iff, isPrime_iff, decide_eq_true_eq]
  have h := primes_length
  have hl : i < ((List.range 410).filter Nat.Prime).length := by rw [← e, h]; exact hi
  rw [List.getD_eq_getElem?_getD, e, List.getElem?_eq_getElem hl, Option.getD_some, nth_filter, prime]

/-! Roots -/

theorem frac_eq (w : ℕ) (x : ℝ) (hx : 0 ≤ x) : frac w x = ⌊2 ^ w * x⌋₊ % 2 ^ w := by
  have hp : (0 : ℝ) < 2 ^ w := by positivity
  have h0 := Nat.floor_le hx
  have h1 : Int.fract x = x - (⌊x⌋₊ : ℝ) := by
    rw [Int.fract, ← natCast_floor_eq_intCast_floor hx]
  have h2 : (2 : ℝ) ^ w * x = 2 ^ w * Int.fract x + ((2 ^ w * ⌊x⌋₊ : ℕ) : ℝ) := by
    rw [h1]; push_cast; ring
  have h3 : (0 : ℝ) ≤ 2 ^ w * Int.fract x := mul_nonneg hp.le (Int.fract_nonneg x)
  rw [frac, h2, Nat.floor_add_natCast h3, Nat.add_mul_mod_self_left, Nat.mod_eq_of_lt]
  rw [Nat.floor_lt h3]
  push_cast
  calc (2 : ℝ) ^ w * Int.fract x < 2 ^ w * 1 := by
        exact mul_lt_mul_of_pos_left (Int.fract_lt_one x) hp
    _ = 2 ^ w := mul_one _

theorem floor_root (k c p N : ℕ) (hk : 0 < k) (h1 : N ^ k ≤ p * c ^ k) (h2 : p * c ^ k < (N + 1) ^ k) :
    ⌊c * root k p⌋₊ = N := by
  have hk' : (k : ℝ) ≠ 0 := by positivity
  have hr : (0 : ℝ) ≤ root k p := Real.rpow_nonneg (Nat.cast_nonneg p) _
  have hpow : (c * root k p) ^ k = (p * c ^ k : ℝ) := by
    rw [mul_pow, root, ← Real.rpow_natCast ((p : ℝ) ^ ((1 : ℝ) / k)) k, ← Real.rpow_mul (Nat.cast_nonneg p), one_div,
      inv_mul_cancel₀ hk', Real.rpow_one, mul_comm]
  have hn : (0 : ℝ) ≤ c * root k p := mul_nonneg (Nat.cast_nonneg c) hr
  rw [Nat.floor_eq_iff hn]
  constructor
  · refine le_of_pow_le_pow_left₀ hk.ne' hn ?_
    rw [hpow]; exact_mod_cast h1
  · refine lt_of_pow_lt_pow_left₀ k (by positivity) ?_
    rw [hpow]; exact_mod_cast h2

/-- `N` is the integer part of `2^w` times the `k`-th root of `p`, and `v` its last `w` bits. -/
def rootOk (k w p v N : ℕ) : Bool := decide (N ^ k ≤ p * (2 ^ w) ^ k) && decide (p * (2 ^ w) ^ k < (N + 1) ^ k) && decide (N % 2 ^ w = v)

theorem frac_root {k w p v N : ℕ} (hk : 0 < k) (h : rootOk k w p v N = true) : frac w (root k p) = v := by
  rw [rootOk, Bool.and_eq_true, Bool.and_eq_true, decide_eq_true_eq, decide_eq_true_eq, decide_eq_true_eq] at h
  have := floor_root k (2 ^ w) p N hk h.1.1 h.1.2
  push_cast at this
  rw [frac_eq w (root k p) (Real.rpow_nonneg (Nat.cast_nonneg p) _), this, h.2]

/-- A table of fractional parts of roots of consecutive primes. -/
theorem table_root (k w off : ℕ) (l : List ℕ) (hk : 0 < k) (hl : off + l.length ≤ 80)
    (h : ((List.range l.length).all fun t => rootOk k w (Spec.primes.getD (off + t) 0) (l.getD t 0)
      (Spec.iroot k (Spec.primes.getD (off + t) 0 * 2 ^ (k * w)) (w + 5) 0)) = true) :
    l = (List.range l.length).map fun t => frac w (root k (prime (off + t))) := by
  rw [List.all_eq_true] at h
  refine List.ext_getElem (by simp) fun t h1 h2 => ?_
  have := frac_root hk (h t (List.mem_range.2 h1))
  rw [List.getElem_map, List.getElem_range, ← prime_eq _ (by omega), this, List.getD_eq_getElem?_getD, List.getElem?_eq_getElem h1,
    Option.getD_some]

/-! Sines -/

/-- Terms `0 … m` of the sine series at `x`: numerator and denominator of the sum, and the numerator of the next term. -/
def sinSum (x : ℕ) : ℕ → Int × ℕ × Int
  | 0 => (x, 1, -(x ^ 3 : ℕ))
  | m + 1 =>
    let r := sinSum x m
    let d := (2 * m + 2) * (2 * m + 3)
    (r.1 * d + r.2.2, r.2.1 * d, -(r.2.2 * (x ^ 2 : ℕ)))

noncomputable def sinTerm (x : ℝ) (n : ℕ) : ℝ := (-1) ^ n * x ^ (2 * n + 1) / ((2 * n + 1).factorial : ℝ)

theorem factorial_two (k : ℕ) : (k + 2).factorial = (k + 2) * (k + 1) * k.factorial := by
  rw [Nat.factorial_succ, Nat.factorial_succ, Nat.mul_assoc]

theorem sinSum_eq (x m : ℕ) : (sinSum x m).2.1 = (2 * m + 1).factorial ∧
    ((sinSum x m).2.2 : ℝ) = (-1) ^ (m + 1) * (x : ℝ) ^ (2 * m + 3) ∧
    ((sinSum x m).1 : ℝ) = (sinSum x m).2.1 * ∑ n ∈ Finset.range (m + 1), sinTerm x n := by
  induction m with
  | zero => refine ⟨rfl, ?_, ?_⟩ <;> simp [sinSum, sinTerm]
  | succ m ih =>
    obtain ⟨h1, h2, h3⟩ := ih
    have hq : (sinSum x (m + 1)).2.1 = (2 * (m + 1) + 1).factorial := by
      show (sinSum x m).2.1 * ((2 * m + 2) * (2 * m + 3)) = _
      rw [h1, show 2 * (m + 1) + 1 = (2 * m + 1) + 2 by ring, factorial_two (2 * m + 1)]
      generalize (2 * m + 1).factorial = q
      ring
    refine ⟨hq, ?_, ?_⟩
    · show ((-((sinSum x m).2.2 * (x ^ 2 : ℕ)) : Int) : ℝ) = _
      push_cast
      rw [h2]; ring
    · rw [hq, Finset.sum_range_succ, mul_add, sinTerm, mul_div_cancel₀ _ (by positivity)]
      show (((sinSum x m).1 * ((2 * m + 2) * (2 * m + 3) : ℕ) + (sinSum x m).2.2 : Int) : ℝ) = _
      push_cast
      rw [h2, h3, h1, show 2 * (m + 1) + 1 = (2 * m + 1) + 2 by ring, factorial_two (2 * m + 1)]
      push_cast
      generalize ((2 * m + 1).factorial : ℝ) = q
      ring

theorem sin_error (x m : ℕ) (hx : x ≤ 2 * m + 2) :
    |Real.sin x - ∑ n ∈ Finset.range (m + 1), sinTerm x n| ≤ (x : ℝ) ^ (2 * m + 3) / ((2 * m + 3).factorial : ℝ) := by
  have hs : HasSum (sinTerm x) (Real.sin x) := Real.hasSum_sin x
  have ht := (hasSum_nat_add_iff' (m + 1)).2 hs
  let f : ℕ → ℝ := fun i => (x : ℝ) ^ (2 * (i + (m + 1)) + 1) / ((2 * (i + (m + 1)) + 1).factorial : ℝ)
  have hanti : Antitone f := by
    refine antitone_nat_of_succ_le fun i => ?_
    simp only [f]
    rw [div_le_div_iff₀ (by positivity) (by positivity), show 2 * (i + 1 + (m + 1)) + 1 = 2 * (i + (m + 1)) + 1 + 2 by ring,
      factorial_two (2 * (i + (m + 1)) + 1), pow_add _ _ 2]
    push_cast
    have hx' : (x : ℝ) ≤ 2 * m + 2 := by exact_mod_cast hx
    have hm : (0 : ℝ) ≤ m := Nat.cast_nonneg m
    have hi : (0 : ℝ) ≤ i := Nat.cast_nonneg i
    have hx0 : (0 : ℝ) ≤ x := Nat.cast_nonneg x
    have h1 : (x : ℝ) * x ≤ (2 * (i + (m + 1)) + 1 + 2) * (2 * (i + (m + 1)) + 1 + 1) :=
      mul_le_mul (by linarith) (by linarith) hx0 (by linarith)
    have h2 : (0 : ℝ) ≤ (x : ℝ) ^ (2 * (i + (m + 1)) + 1) * ((2 * (i + (m + 1)) + 1).factorial : ℝ) := by positivity
    nlinarith [mul_le_mul_of_nonneg_left h1 h2]
  have hf : (fun n => sinTerm x (n + (m + 1))) = fun n => (-1) ^ (m + 1) * ((-1) ^ n * f n) := by
    funext n; simp only [sinTerm, f]; rw [pow_add]; ring
  rw [hf] at ht
  have hsum : Summable f := by
    have := (Real.summable_pow_div_factorial (x : ℝ)).comp_injective (i := fun n => 2 * (n + (m + 1)) + 1) fun a b h => by
      simp only at h; omega
    exact this
  have hb := alternating_series_error_bound f hanti hsum 0
  rw [Finset.sum_range_zero, sub_zero] at hb
  have ht' : HasSum (fun n => (-1 : ℝ) ^ n * f n) (∑' n, (-1 : ℝ) ^ n * f n) := hsum.alternating.hasSum
  have he := ht.unique (ht'.mul_left ((-1) ^ (m + 1)))
  rw [he, abs_mul, abs_pow, abs_neg, abs_one, one_pow, one_mul]
  refine hb.trans (le_of_eq ?_)
  simp only [f]
  rw [show 2 * (0 + (m + 1)) + 1 = 2 * m + 3 by ring]

/-- `v` is the integer part of `2^32 |sin x|`, from the terms `0 … m`. -/
def sinOk (m x v : ℕ) : Bool :=
  let r := sinSum x m
  decide (x ≤ 2 * m + 2) && decide (x ^ (2 * m + 3) * 2 ^ 64 ≤ (2 * m + 3).factorial) &&
    decide ((v * 2 ^ 32 + 1) * r.2.1 ≤ 2 ^ 64 * r.1.natAbs) && decide (2 ^ 64 * r.1.natAbs + 2 * r.2.1 ≤ (v + 1) * 2 ^ 32 * r.2.1)

theorem floor_sin {m x v : ℕ} (h : sinOk m x v = true) : ⌊2 ^ 32 * |Real.sin x|⌋₊ = v := by
  rw [sinOk, Bool.and_eq_true, Bool.and_eq_true, Bool.and_eq_true, decide_eq_true_eq, decide_eq_true_eq, decide_eq_true_eq,
    decide_eq_true_eq] at h
  obtain ⟨⟨⟨h1, h2⟩, h3⟩, h4⟩ := h
  obtain ⟨e1, -, e3⟩ := sinSum_eq x m
  have herr := sin_error x m h1
  set S := ∑ n ∈ Finset.range (m + 1), sinTerm x n
  set P := (sinSum x m).1
  set Q := (sinSum x m).2.1
  have hQ : 0 < Q := by rw [e1]; exact Nat.factorial_pos _
  have hQ' : (0 : ℝ) < Q := by exact_mod_cast hQ
  have h2' : (x : ℝ) ^ (2 * m + 3) / ((2 * m + 3).factorial : ℝ) ≤ 1 / 2 ^ 64 := by
    rw [div_le_div_iff₀ (by positivity) (by positivity), one_mul]
    exact_mod_cast h2
  have hS : |S| * Q = (P.natAbs : ℝ) := by
    rw [Nat.cast_natAbs, Int.cast_abs, e3, abs_mul, abs_of_pos hQ', mul_comm]
  have h3' : ((v : ℝ) * 2 ^ 32 + 1) * Q ≤ 2 ^ 64 * (|S| * Q) := by rw [hS]; exact_mod_cast h3
  have h4' : 2 ^ 64 * (|S| * Q) + 2 * Q ≤ ((v : ℝ) + 1) * 2 ^ 32 * Q := by rw [hS]; exact_mod_cast h4
  have h3'' : (v : ℝ) * 2 ^ 32 + 1 ≤ 2 ^ 64 * |S| := le_of_mul_le_mul_right (by linarith) hQ'
  have h4'' : 2 ^ 64 * |S| + 2 ≤ ((v : ℝ) + 1) * 2 ^ 32 := le_of_mul_le_mul_right (by linarith) hQ'
  have habs : |(|Real.sin x| - |S|)| ≤ 1 / 2 ^ 64 := (abs_abs_sub_abs_le_abs_sub _ _).trans (herr.trans h2')
  rw [abs_le] at habs
  rw [Nat.floor_eq_iff (by positivity)]
  constructor
  · linarith [habs.1]
  · linarith [habs.2]

theorem table_sin (m : ℕ) (l : List ℕ) (h : ((List.range l.length).all fun i => sinOk m (i + 1) (l.getD i 0)) = true) :
    l = (List.range l.length).map fun i => ⌊2 ^ 32 * |Real.sin ((i + 1 : ℕ) : ℝ)|⌋₊ := by
  rw [List.all_eq_true] at h
  refine List.ext_getElem (by rw [List.length_map, List.length_range]) fun i h1 h2 => ?_
  have := floor_sin (h i (List.mem_range.2 h1))
  rw [List.getElem_map, List.getElem_range, this, List.getD_eq_getElem?_getD, List.getElem?_eq_getElem h1, Option.getD_some]

/-! Digits of π -/

theorem digit_prefix (n r i : ℕ) (hi : i < n) : (3 * 10 ^ n + r) / 10 ^ (n - (i + 1)) % 10 = r / 10 ^ (n - (i + 1)) % 10 := by
  obtain ⟨d, rfl⟩ : ∃ d, n = i + 1 + d := ⟨n - (i + 1), by omega⟩
  rw [show i + 1 + d - (i + 1) = d by omega, Nat.pow_add, Nat.pow_succ, ← Nat.mul_assoc, Nat.add_comm,
    Nat.add_mul_div_right _ _ (Nat.pow_pos (by decide))]
  generalize r / 10 ^ d = z
  generalize 10 ^ i = y
  omega

set_option exponentiation.threshold 2000 in
theorem piDigit_eq (i : ℕ) (hi : i < 1065) : piDigit i = (3 * 10 ^ 1064 + Pi.rows0.headD 0) / 10 ^ (1064 - i) % 10 := by
  have hrow : Pi.allRows.flatten[0]'(by rw [Pi.flatten_len]; decide) = Pi.rows0.headD 0 := by decide +kernel
  cases i with
  | zero =>
    have h1 := Real.pi_gt_three
    have h2 := Real.pi_lt_four
    have hf : ⌊Real.pi⌋₊ = 3 := by
      rw [Nat.floor_eq_iff Real.pi_pos.le]
      constructor <;> norm_num <;> linarith
    rw [piDigit, hf]
    decide +kernel
  | succ i =>
    have h := Pi.digits_digit 0 i (by decide) (by omega)
    rw [Nat.mul_zero, Nat.zero_add] at h
    rw [piDigit, Spec.Pi.decimal, Pi.floor_pi i (by show i < 2179072; omega), h, hrow,
      show 1063 - i = 1064 - (i + 1) by omega]
    exact (digit_prefix 1064 _ i (by omega)).symm

end Hashes.Reals
