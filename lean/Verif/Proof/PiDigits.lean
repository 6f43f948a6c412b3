import Verif.Proof.PiSplit
import Verif.Proof.PiRows
import Mathlib.Analysis.SpecialFunctions.Trigonometric.Arctan
/-
The rows of Proof/PiRows.lean are the first 2179072 decimals of π: Machin's formula, 1572864 terms of the series of arctan (1/5) and
524288 of the series of arctan (1/239), evaluated by the kernel with 20 further decimals.
-/
namespace Hashes.Pi

def allRows : List (List Nat) :=
  [rows0, rows1, rows2, rows3, rows4, rows5, rows6, rows7, rows8, rows9, rows10, rows11, rows12, rows13, rows14, rows15]

/-- Rows read as digits to the base `b`. -/
def horner (b : Nat) (l : List Nat) (a : Nat) : Nat := l.foldl (fun a r => Nat.add (Nat.mul a b) r) a

/-- 3 and the decimals of all rows, without the point. -/
def digits : Nat := horner (10 ^ (1064 * 128)) (allRows.map fun l => horner (10 ^ 1064) l 0) 3

/-- Number of decimals. -/
abbrev D : Nat := 2179072

/-- `16·arctan(1/5)·M` rounded, from the two blocks `p`, `q` of terms of the series. -/
def upper (p q : Nat × Nat) (M : Nat) : Nat := 16 * M * (p.2 * q.1 * 25 ^ 524288 + p.1 * q.2) * 5 / (p.1 * q.1 * 25 ^ 1572864)
/-- `4·arctan(1/239)·M` rounded, from the block `r` of terms of the series. -/
def lower (r : Nat × Nat) (M : Nat) : Nat := 4 * M * r.2 * 239 / (r.1 * 57121 ^ 524288)

/-- 16·arctan(1/5) − 4·arctan(1/239) has the digits of `N`, with a margin for the errors. -/
def check (u v N : Nat) : Bool := Nat.ble (N * 10 ^ 20 + 4 + v) u && Nat.ble (u + 5) ((N + 1) * 10 ^ 20 + v)

theorem good_pair (p q : Nat × Nat) (h1 : Good 25 0 1048576 p.1 p.2) (h2 : Good 25 1048576 524288 q.1 q.2) :
    Good 25 0 1572864 (p.1 * q.1) (p.2 * q.1 * 25 ^ 524288 + p.1 * q.2) :=
  Good.add (s := 0) (L := 1048576) (L' := 524288) (by decide) (by decide) h1 h2

/-- The quotient of `Good` values is the partial sum, up to rounding. -/
theorem floor_part {X n B T x c : ℕ} (hx : 0 < x) (hX : X = x ^ 2) (h : Good X 0 n B T) (M : ℕ) :
    ((c * M * T * x / (B * X ^ n) : ℕ) : ℝ) ≤ c * M * (part X 0 n / x) ∧
    c * M * (part X 0 n / x) < ((c * M * T * x / (B * X ^ n) : ℕ) : ℝ) + 1 := by
  have hx' : (0 : ℝ) < x := by exact_mod_cast hx
  have hB : (0 : ℝ) < B := by exact_mod_cast h.1
  have hXp : 0 < X := by rw [hX]; positivity
  have hX' : (0 : ℝ) < X := by exact_mod_cast hXp
  have hd : 0 < B * X ^ n := Nat.mul_pos h.1 (Nat.pow_pos hXp)
  have hd' : (0 : ℝ) < ((B * X ^ n : ℕ) : ℝ) := by exact_mod_cast hd
  have key : (c : ℝ) * M * (part X 0 n / x) = ((c * M * T * x : ℕ) : ℝ) / ((B * X ^ n : ℕ) : ℝ) := by
    have e := h.2
    rw [eq_div_iff hd'.ne']
    have hX2 : (X : ℝ) = x ^ 2 := by rw [hX]; push_cast; rfl
    have e' : (B : ℝ) * X ^ n * part X 0 n = T * x ^ 2 := by rw [← e, hX2]
    push_cast
    calc (c : ℝ) * M * (part X 0 n / x) * (B * X ^ n) = c * M * (B * X ^ n * part X 0 n) / x := by ring
      _ = c * M * (T * x ^ 2) / x := by rw [e']
      _ = c * M * T * x := by field_simp
  rw [key]
  exact ⟨Nat.cast_div_le, by rw [div_lt_iff₀ hd']; exact_mod_cast (Nat.div_lt_iff_lt_mul hd).1 (Nat.lt_succ_self _)⟩

/-- The error of the partial sums is below one unit. -/
theorem err (x n c M : ℕ) (hx : 2 ≤ x) (h : c * M ≤ (x ^ 2) ^ n) :
    |(c * M * Real.arctan ((x : ℝ)⁻¹)) - c * M * (part (x ^ 2) 0 n / x)| ≤ 1 := by
  have hx' : (0 : ℝ) < x := by have : 0 < x := by omega
                               exact_mod_cast this
  rw [← mul_sub, abs_mul, abs_of_nonneg (by positivity)]
  refine (mul_le_mul_of_nonneg_left (arctan_part x hx n) (by positivity)).trans ?_
  rw [mul_one_div, div_le_one (by positivity)]
  exact_mod_cast h

theorem err_u_ble : Nat.ble (16 * 10 ^ (D + 20)) ((5 ^ 2) ^ 1572864) = true := by decide +kernel
theorem err_v_ble : Nat.ble (4 * 10 ^ (D + 20)) ((239 ^ 2) ^ 524288) = true := by decide +kernel

theorem err_u (M : ℕ) (hM : M = 10 ^ (D + 20)) : 16 * M ≤ (5 ^ 2) ^ 1572864 := by
  have h := err_u_ble
  rw [← hM] at h
  exact Nat.le_of_ble_eq_true h

theorem err_v (M : ℕ) (hM : M = 10 ^ (D + 20)) : 4 * M ≤ (239 ^ 2) ^ 524288 := by
  have h := err_v_ble
  rw [← hM] at h
  exact Nat.le_of_ble_eq_true h

/-- The bounds from the check, with everything large abstracted. -/
theorem bounds (u v N M D10 : ℕ) (x : ℝ) (hM : M = D10 * 10 ^ 20) (h1 : N * 10 ^ 20 + 4 + v ≤ u) (h2 : u + 5 ≤ (N + 1) * 10 ^ 20 + v)
    (hx : |x * M - ((u : ℝ) - v)| ≤ 4) : (N : ℝ) ≤ x * D10 ∧ x * D10 < N + 1 := by
  have a1 : (N : ℝ) * 10 ^ 20 + 4 + v ≤ u := by exact_mod_cast h1
  have a2 : (u : ℝ) + 5 ≤ (N + 1) * 10 ^ 20 + v := by exact_mod_cast h2
  rw [hM] at hx
  push_cast at hx
  obtain ⟨b1, b2⟩ := abs_le.1 hx
  constructor <;> nlinarith

theorem abs_sub_floor {y x : ℝ} {n : ℕ} (h : |y - x| ≤ 1) (h1 : (n : ℝ) ≤ x) (h2 : x < n + 1) : |y - n| ≤ 2 := by
  rw [abs_le] at *; constructor <;> linarith

theorem bounds_of_check (p q r : Nat × Nat) (D10 M N : ℕ) (hD : D10 = 10 ^ D) (hM : M = 10 ^ (D + 20))
    (hp : Good 25 0 1048576 p.1 p.2) (hq : Good 25 1048576 524288 q.1 q.2) (hr : Good 57121 0 524288 r.1 r.2)
    (hc : check (upper p q M) (lower r M) N = true) : (N : ℝ) ≤ Real.pi * D10 ∧ Real.pi * D10 < N + 1 := by
  rw [check, Bool.and_eq_true, Nat.ble_eq, Nat.ble_eq] at hc
  have hu := floor_part (c := 16) (x := 5) (by decide) (by decide) (good_pair p q hp hq) M
  have hv := floor_part (c := 4) (x := 239) (by decide) (by decide) hr M
  have eu := err 5 1572864 16 M (by decide) (err_u M hM)
  have ev := err 239 524288 4 M (by decide) (err_v M hM)
  have xu := abs_sub_floor eu hu.1 hu.2
  have xv := abs_sub_floor ev hv.1 hv.2
  rw [← upper] at xu
  rw [← lower] at xv
  refine bounds (upper p q M) (lower r M) N M D10 Real.pi (by rw [hM, hD, pow_add]) hc.1 hc.2 ?_
  have hpi := Real.four_mul_arctan_inv_5_sub_arctan_inv_239
  have e : Real.pi * M = ((16 : ℕ) : ℝ) * M * Real.arctan (((5 : ℕ) : ℝ)⁻¹) - ((4 : ℕ) : ℝ) * M * Real.arctan (((239 : ℕ) : ℝ)⁻¹) := by
    push_cast
    have : Real.pi = 4 * (4 * Real.arctan 5⁻¹ - Real.arctan 239⁻¹) := by rw [hpi]; ring
    rw [this]; ring
  rw [e]
  rw [abs_le] at *
  constructor <;> linarith [xu.1, xu.2, xv.1, xv.2]

set_option maxRecDepth 100000 in
theorem check_true : check (upper (split25 16 0) (split25 15 2) (10 ^ (D + 20))) (lower (split57121 15 0) (10 ^ (D + 20))) digits = true := by
  decide +kernel

/-- The rows are the decimals of π. -/
theorem pi_bounds (D10 : ℕ) (hD : D10 = 10 ^ D) : (digits : ℝ) ≤ Real.pi * D10 ∧ Real.pi * D10 < digits + 1 :=
  bounds_of_check (split25 16 0) (split25 15 2) (split57121 15 0) D10 (10 ^ (D + 20)) digits hD rfl
    (split25_good 16 0) (split25_good 15 2) (split57121_good 15 0) check_true

end Hashes.Pi
