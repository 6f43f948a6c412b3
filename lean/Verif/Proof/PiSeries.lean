import Mathlib.Analysis.SpecialFunctions.Complex.Arctan
import Mathlib.Analysis.SpecificLimits.Normed
import Mathlib.Tactic.Ring
import Mathlib.Tactic.FieldSimp
import Mathlib.Tactic.Linarith
/-
Partial sums of the series of the arc tangent of 1/x and their error; used for the decimals of π (Proof/PiDigits.lean).
-/
namespace Hashes.Pi
open Finset

/-- `Σ_{i<L} (-1)^i / ((2(s+i)+1) · X^i)` -/
noncomputable def part (X : ℕ) (s L : ℕ) : ℝ := ∑ i ∈ range L, (-1 : ℝ) ^ i / ((2 * ((s + i : ℕ) : ℝ) + 1) * (X : ℝ) ^ i)

/-- arctan (1/x) is the partial sum over x, up to the next term. -/
theorem arctan_part (x : ℕ) (hx : 2 ≤ x) (n : ℕ) :
    |Real.arctan ((x : ℝ)⁻¹) - part (x ^ 2) 0 n / x| ≤ 1 / ((x : ℝ) ^ 2) ^ n := by
  have hx0 : (2 : ℝ) ≤ x := by exact_mod_cast hx
  have hp : (0 : ℝ) < x := by linarith
  have hinv : (x : ℝ)⁻¹ < 1 := inv_lt_one_of_one_lt₀ (by linarith)
  have hinv0 : 0 < (x : ℝ)⁻¹ := inv_pos.2 hp
  have hs := Real.hasSum_arctan (x := (x : ℝ)⁻¹) (by rw [Real.norm_of_nonneg hinv0.le]; exact hinv)
  let f : ℕ → ℝ := fun i => (x : ℝ)⁻¹ ^ (2 * i + 1) / ((2 * i + 1 : ℕ) : ℝ)
  have hf : (fun n : ℕ => (-1 : ℝ) ^ n * (x : ℝ)⁻¹ ^ (2 * n + 1) / ((2 * n + 1 : ℕ) : ℝ)) = fun n => (-1) ^ n * f n := by
    funext i; simp only [f]; ring
  rw [hf] at hs
  have hanti : Antitone f := by
    refine antitone_nat_of_succ_le fun i => ?_
    simp only [f]
    refine div_le_div₀ (by positivity) ?_ (by positivity) (by push_cast; linarith)
    exact pow_le_pow_of_le_one hinv0.le hinv.le (by omega)
  have hsum : Summable f := by
    refine Summable.of_nonneg_of_le (fun i => by simp only [f]; positivity) (fun i => ?_)
      (summable_geometric_of_lt_one hinv0.le hinv)
    simp only [f]
    have h1 : (x : ℝ)⁻¹ ^ (2 * i + 1) ≤ (x : ℝ)⁻¹ ^ i := pow_le_pow_of_le_one hinv0.le hinv.le (by omega)
    have h2 : (1 : ℝ) ≤ ((2 * i + 1 : ℕ) : ℝ) := by push_cast; have : (0 : ℝ) ≤ i := Nat.cast_nonneg i; linarith
    exact (div_le_self (by positivity) h2).trans h1
  have h := alternating_series_error_bound f hanti hsum n
  rw [hs.tsum_eq] at h
  have he : ∑ i ∈ range n, (-1 : ℝ) ^ i * f i = part (x ^ 2) 0 n / x := by
    rw [part, sum_div]
    refine sum_congr rfl fun i _ => ?_
    simp only [f]
    push_cast
    rw [zero_add, inv_pow, pow_succ, pow_mul]
    field_simp
  rw [he] at h
  refine h.trans ?_
  simp only [f]
  rw [inv_pow, ← pow_mul, one_div]
  have h1 : ((x : ℝ) ^ (2 * n + 1))⁻¹ ≤ ((x : ℝ) ^ (2 * n))⁻¹ :=
    inv_anti₀ (by positivity) (pow_le_pow_right₀ (by linarith) (by omega))
  have h2 : (1 : ℝ) ≤ ((2 * n + 1 : ℕ) : ℝ) := by push_cast; have : (0 : ℝ) ≤ n := Nat.cast_nonneg n; linarith
  exact (div_le_self (by positivity) h2).trans h1

/-- `B`, `T` represent the partial sum: `T / (B · X^(L-1))`. -/
def Good (X s L B T : ℕ) : Prop := 0 < B ∧ (T : ℝ) * X = B * (X : ℝ) ^ L * part X s L

theorem part_add (X s L L' : ℕ) (hX : 0 < X) :
    part X s (L + L') = part X s L + (-1) ^ L / (X : ℝ) ^ L * part X (s + L) L' := by
  have hX' : (0 : ℝ) < X := by exact_mod_cast hX
  rw [part, sum_range_add, part, part, mul_sum]
  congr 1
  refine sum_congr rfl fun i _ => ?_
  rw [← add_assoc, pow_add, pow_add]
  have : (2 * ((s + L + i : ℕ) : ℝ) + 1) ≠ 0 := by positivity
  field_simp

theorem Good.add {X s L L' B T B' T' : ℕ} (hX : 0 < X) (hL : Even L) (h : Good X s L B T) (h' : Good X (s + L) L' B' T') :
    Good X s (L + L') (B * B') (T * B' * X ^ L' + B * T') := by
  have hX' : (0 : ℝ) < X := by exact_mod_cast hX
  refine ⟨Nat.mul_pos h.1 h'.1, ?_⟩
  rw [part_add X s L L' hX, hL.neg_one_pow]
  push_cast
  have e1 := h.2
  have e2 := h'.2
  have : ((T : ℝ) * B' * X ^ L' + B * T') * X = (T * X) * B' * X ^ L' + B * (T' * X) := by ring
  rw [this, e1, e2, pow_add]
  field_simp

theorem good_two {X : ℕ} (hX : 0 < X) (s T : ℕ) (hT : T + (2 * s + 1) = (2 * s + 3) * X) :
    Good X s 2 ((2 * s + 1) * (2 * s + 3)) T := by
  have hX' : (0 : ℝ) < X := by exact_mod_cast hX
  refine ⟨by positivity, ?_⟩
  have h : (T : ℝ) = (2 * s + 3) * X - (2 * s + 1) := by
    have : ((T + (2 * s + 1) : ℕ) : ℝ) = (((2 * s + 3) * X : ℕ) : ℝ) := by rw [hT]
    push_cast at this; linarith
  rw [h, part, sum_range_succ, sum_range_succ, sum_range_zero]
  push_cast
  have h1 : (2 * (s : ℝ) + 1) ≠ 0 := by positivity
  have h3 : (2 * ((s : ℝ) + 1) + 1) ≠ 0 := by positivity
  field_simp
  ring

end Hashes.Pi
