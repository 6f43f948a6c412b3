import Mathlib.Analysis.SpecialFunctions.Pow.Real
import Mathlib.NumberTheory.PrimeCounting
import Mathlib.Analysis.SpecialFunctions.Trigonometric.Basic
import Verif.Spec.Pi
/-
The real-number expressions that standards name as the origin of their constants.
-/
namespace Hashes.Spec.Reals

/-- Prime number `n`, counted from 0 (`prime 0 = 2`). -/
noncomputable def prime (n : ℕ) : ℕ := Nat.nth Nat.Prime n

/-- `k`-th root. -/
noncomputable def root (k : ℕ) (x : ℝ) : ℝ := x ^ ((1 : ℝ) / k)

/-- First `w` bits of the fractional part. -/
noncomputable def frac (w : ℕ) (x : ℝ) : ℕ := ⌊2 ^ w * Int.fract x⌋₊

/-- Digit `i` of π = 3.14159…, counted from 0. -/
noncomputable def piDigit : ℕ → ℕ
  | 0 => ⌊Real.pi⌋₊
  | i + 1 => Pi.decimal i

/-! ### The table of MD2: a shuffle of 0 … 255 driven by the digits of π -/

/-- A number below `n` from a stream of decimal digits: one, two or three digits for `n ≤ 10`, `n ≤ 100`, `n > 100`, discarded when not
below the largest multiple of `n` in range. Returns the number and the remaining digits; at most `fuel` tries. -/
def draw (n : ℕ) : ℕ → List ℕ → ℕ × List ℕ
  | 0, ds => (0, ds)
  | fuel + 1, ds =>
    let k := if n ≤ 10 then 1 else if n ≤ 100 then 2 else 3
    let x := (ds.take k).foldl (fun a d => 10 * a + d) 0
    if x < n * (10 ^ k / n) then (x % n, ds.drop k) else draw n fuel (ds.drop k)

/-- Exchange the entries `i` and `j`. -/
def swap (l : List ℕ) (i j : ℕ) : List ℕ := (l.set i (l.getD j 0)).set j (l.getD i 0)

/-- For `i = 2 … 256`, exchange entry `i - 1` with the entry drawn below `i`. -/
def shuffle (ds : List ℕ) : List ℕ × List ℕ :=
  (List.range' 2 255).foldl (fun s i => let r := draw i ds.length s.2; (swap s.1 r.1 (i - 1), r.2)) (List.range 256, ds)

end Hashes.Spec.Reals
