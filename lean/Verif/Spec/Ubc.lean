import Verif.Base.Bytes
/-
Unavoidable bit conditions of the 32 disturbance vectors, one list per vector (M. Stevens, D. Shumow,
"Speeding up detection of SHA-1 collision attacks using unavoidable attack conditions"): an entry `(i, a, j, b, p)`
says that bit `a` of expanded message word `i` xor bit `b` of word `j` must be `p`.
Formatted by tools/gen_ubc.py.
-/
namespace Hashes.Spec.Ubc

/-- (word, bit, word, bit, parity) -/
abbrev Cond := Nat × Nat × Nat × Nat × Bool

/-- Conditions of each vector, listed by vector number. -/
def conds : List (List Cond) := [
  -- I(43,0)
  [(37, 4, 39, 4, true), (37, 4, 40, 29, false), (39, 4, 41, 4, true), (39, 4, 42, 29, false), (41, 4, 44, 29, false), (43, 4, 46, 29, false), (44, 29, 46, 29, true), (46, 29, 47, 29, false), (58, 0, 63, 30, true), (59, 5, 63, 30, false), (61, 1, 62, 6, true)],
  -- I(44,0)
  [(38, 4, 40, 4, true), (38, 4, 41, 29, false), (40, 4, 42, 4, true), (40, 4, 43, 29, false), (40, 29, 41, 29, false), (42, 4, 45, 29, false), (44, 4, 47, 29, false), (45, 29, 47, 29, true), (47, 29, 48, 29, false), (59, 0, 64, 30, true), (60, 5, 64, 30, false), (62, 1, 63, 6, true)],
  -- I(45,0)
  [(35, 4, 39, 29, false), (39, 4, 41, 4, true), (39, 4, 42, 29, false), (41, 4, 44, 29, false), (41, 29, 42, 29, false), (43, 4, 46, 29, false), (44, 29, 46, 29, true), (45, 4, 48, 29, false), (46, 29, 48, 29, true), (48, 29, 49, 29, false), (60, 0, 61, 5, true), (63, 1, 64, 6, true)],
  -- I(46,0)
  [(36, 4, 40, 29, false), (40, 4, 42, 4, true), (40, 4, 43, 29, false), (42, 4, 45, 29, false), (42, 29, 43, 29, false), (44, 4, 47, 29, false), (45, 29, 47, 29, true), (46, 4, 49, 29, false), (47, 29, 49, 29, true), (49, 29, 50, 29, false), (61, 0, 62, 5, true)],
  -- I(46,2)
  [(35, 1, 36, 6, true), (39, 1, 40, 6, true), (40, 6, 42, 6, false), (42, 6, 44, 6, false), (44, 6, 46, 6, false), (46, 6, 47, 1, false), (61, 2, 62, 7, true)],
  -- I(47,0)
  [(37, 4, 40, 29, false), (40, 29, 41, 29, false), (41, 4, 44, 29, false), (43, 4, 46, 29, false), (43, 29, 44, 29, false), (44, 29, 46, 29, true), (45, 4, 48, 29, false), (46, 29, 48, 29, true), (47, 4, 50, 29, false), (48, 29, 50, 29, true), (50, 29, 51, 29, false), (62, 0, 63, 5, true)],
  -- I(47,2)
  [(36, 1, 37, 6, true), (40, 1, 41, 6, true), (41, 6, 43, 6, false), (43, 6, 45, 6, false), (45, 6, 47, 6, false), (47, 6, 48, 1, false), (62, 2, 63, 7, true)],
  -- I(48,0)
  [(35, 4, 39, 29, false), (38, 4, 41, 29, false), (40, 29, 41, 29, false), (41, 29, 42, 29, false), (42, 4, 45, 29, false), (44, 4, 47, 29, false), (44, 29, 45, 29, false), (45, 29, 47, 29, true), (46, 4, 49, 29, false), (47, 29, 49, 29, true), (48, 4, 51, 29, false), (49, 29, 51, 29, true), (51, 29, 52, 29, false), (63, 0, 64, 5, true)],
  -- I(48,2)
  [(37, 1, 38, 6, true), (41, 1, 42, 6, true), (42, 6, 44, 6, false), (44, 6, 46, 6, false), (46, 6, 48, 6, false), (48, 6, 49, 1, false), (63, 2, 64, 7, true)],
  -- I(49,0)
  [(36, 4, 40, 29, false), (39, 4, 42, 29, false), (41, 29, 42, 29, false), (42, 29, 43, 29, false), (43, 4, 46, 29, false), (45, 4, 48, 29, false), (45, 29, 46, 29, false), (46, 29, 48, 29, true), (47, 4, 50, 29, false), (48, 29, 50, 29, true), (49, 4, 52, 29, false), (50, 29, 52, 29, true), (52, 29, 53, 29, false)],
  -- I(49,2)
  [(35, 1, 36, 6, true), (38, 1, 40, 1, true), (39, 6, 40, 1, false), (42, 1, 50, 1, true), (43, 6, 45, 6, false), (45, 6, 47, 6, false), (47, 6, 49, 6, false), (49, 6, 50, 1, false)],
  -- I(50,0)
  [(36, 4, 37, 4, true), (37, 4, 41, 29, false), (40, 4, 43, 29, false), (42, 29, 43, 29, false), (43, 29, 44, 29, false), (44, 4, 47, 29, false), (46, 4, 49, 29, false), (46, 29, 47, 29, false), (47, 29, 49, 29, true), (48, 4, 51, 29, false), (49, 29, 51, 29, true), (50, 4, 53, 29, false), (51, 29, 54, 29, true), (53, 29, 54, 29, false)],
  -- I(50,2)
  [(36, 1, 37, 6, true), (39, 1, 40, 6, true), (40, 6, 41, 1, false), (43, 1, 51, 1, true), (44, 6, 46, 6, false), (46, 6, 48, 6, false), (48, 6, 50, 6, false), (50, 6, 51, 1, false)],
  -- I(51,0)
  [(35, 3, 39, 28, false), (37, 4, 38, 4, true), (38, 4, 42, 29, false), (41, 4, 44, 29, false), (43, 29, 44, 29, false), (44, 29, 45, 29, false), (45, 4, 48, 29, false), (47, 4, 50, 29, false), (47, 29, 48, 29, false), (48, 29, 50, 29, true), (48, 29, 55, 29, true), (49, 4, 52, 29, false), (50, 29, 52, 29, true), (51, 4, 54, 29, false), (54, 29, 55, 29, false)],
  -- I(51,2)
  [(35, 5, 39, 30, false), (37, 1, 37, 6, false), (37, 1, 38, 6, true), (40, 1, 41, 6, true), (41, 6, 42, 1, false), (44, 1, 45, 6, true), (45, 6, 47, 6, false), (47, 6, 49, 6, false), (49, 6, 51, 6, false), (51, 6, 52, 1, false)],
  -- I(52,0)
  [(38, 4, 39, 4, true), (39, 4, 43, 29, false), (42, 4, 45, 29, false), (44, 29, 45, 29, false), (45, 29, 46, 29, false), (46, 4, 49, 29, false), (48, 4, 51, 29, false), (48, 29, 49, 29, false), (48, 29, 55, 29, true), (49, 29, 51, 29, true), (50, 4, 53, 29, false), (52, 4, 55, 29, false), (53, 29, 56, 29, true), (55, 29, 56, 29, false)],
  -- II(45,0)
  [(36, 4, 40, 29, false), (41, 4, 44, 29, false), (43, 29, 44, 29, false), (44, 29, 45, 29, false), (47, 4, 50, 29, false), (49, 4, 52, 29, false), (49, 29, 50, 29, false), (50, 29, 52, 29, true), (52, 29, 53, 29, false), (60, 0, 61, 5, true), (63, 1, 64, 6, true)],
  -- II(46,0)
  [(37, 4, 40, 29, false), (40, 29, 41, 29, false), (42, 4, 45, 29, false), (44, 29, 45, 29, false), (45, 29, 46, 29, false), (48, 4, 51, 29, false), (50, 4, 53, 29, false), (50, 29, 51, 29, false), (51, 29, 54, 29, true), (53, 29, 54, 29, false), (61, 0, 62, 5, true)],
  -- II(46,2)
  [(36, 1, 37, 6, true), (41, 1, 42, 6, true), (42, 6, 43, 1, false), (47, 1, 51, 1, true), (48, 6, 50, 6, false), (50, 6, 51, 1, false), (61, 2, 62, 7, true)],
  -- II(47,0)
  [(35, 3, 39, 28, false), (35, 4, 39, 29, false), (38, 4, 41, 29, false), (40, 29, 41, 29, false), (41, 29, 42, 29, false), (43, 4, 46, 29, false), (45, 29, 46, 29, false), (46, 29, 47, 29, false), (49, 4, 52, 29, false), (51, 4, 54, 29, false), (51, 29, 52, 29, false), (51, 29, 54, 29, true), (54, 29, 55, 29, false), (62, 0, 63, 5, true)],
  -- II(48,0)
  [(35, 30, 40, 28, true), (36, 3, 40, 28, false), (36, 4, 40, 29, false), (39, 4, 42, 29, false), (41, 29, 42, 29, false), (42, 29, 43, 29, false), (44, 4, 47, 29, false), (46, 29, 47, 29, false), (47, 29, 48, 29, false), (50, 4, 53, 29, false), (52, 4, 55, 29, false), (52, 29, 53, 29, false), (53, 29, 56, 29, true), (55, 29, 56, 29, false), (63, 0, 64, 5, true)],
  -- II(49,0)
  [(36, 30, 41, 28, true), (37, 3, 41, 28, false), (37, 4, 41, 29, false), (40, 4, 43, 29, false), (42, 29, 43, 29, false), (43, 29, 44, 29, false), (45, 4, 48, 29, false), (47, 29, 48, 29, false), (48, 29, 49, 29, false), (51, 4, 54, 29, false), (53, 4, 56, 29, false), (53, 29, 54, 29, false), (53, 29, 56, 29, true), (56, 29, 57, 29, false)],
  -- II(49,2)
  [(36, 0, 41, 30, true), (37, 5, 41, 30, false), (39, 1, 40, 6, true), (40, 6, 41, 1, false), (44, 1, 45, 6, true), (45, 6, 46, 1, false), (50, 1, 54, 1, true), (51, 6, 53, 6, false), (53, 6, 54, 1, false)],
  -- II(50,0)
  [(37, 30, 42, 28, true), (38, 3, 42, 28, false), (38, 4, 42, 29, false), (41, 4, 44, 29, false), (43, 29, 44, 29, false), (44, 29, 45, 29, false), (46, 4, 49, 29, false), (48, 29, 49, 29, false), (49, 29, 50, 29, false), (52, 4, 55, 29, false), (54, 4, 57, 29, false), (54, 29, 55, 29, false), (55, 29, 58, 29, true), (57, 29, 58, 29, false)],
  -- II(50,2)
  [(37, 0, 42, 30, true), (38, 5, 42, 30, false), (40, 1, 41, 6, true), (41, 6, 42, 1, false), (45, 1, 47, 1, true), (46, 6, 47, 1, false), (51, 1, 55, 1, true), (52, 6, 54, 6, false), (54, 6, 55, 1, false)],
  -- II(51,0)
  [(38, 30, 43, 28, true), (39, 3, 43, 28, false), (39, 4, 43, 29, false), (42, 4, 45, 29, false), (44, 29, 45, 29, false), (45, 29, 46, 29, false), (47, 4, 50, 29, false), (49, 29, 50, 29, false), (50, 29, 51, 29, false), (53, 4, 56, 29, false), (55, 4, 58, 29, false), (55, 29, 56, 29, false), (56, 29, 59, 29, true), (58, 29, 59, 29, false)],
  -- II(51,2)
  [(38, 0, 43, 30, true), (39, 5, 43, 30, false), (41, 1, 42, 6, true), (42, 6, 43, 1, false), (46, 1, 48, 1, true), (47, 6, 48, 1, false), (52, 1, 56, 1, true), (53, 6, 55, 6, false), (55, 6, 56, 1, false)],
  -- II(52,0)
  [(36, 4, 38, 4, true), (39, 30, 44, 28, true), (40, 3, 44, 28, false), (40, 4, 44, 29, false), (43, 4, 46, 29, false), (45, 29, 46, 29, false), (46, 29, 47, 29, false), (48, 4, 51, 29, false), (50, 29, 51, 29, false), (51, 29, 52, 29, false), (54, 4, 57, 29, false), (56, 4, 59, 29, false), (56, 29, 57, 29, false), (56, 29, 59, 29, true), (59, 29, 60, 29, false)],
  -- II(53,0)
  [(37, 4, 39, 4, true), (37, 4, 40, 29, false), (41, 3, 45, 28, false), (41, 4, 45, 29, false), (44, 4, 47, 29, false), (46, 29, 47, 29, false), (47, 29, 48, 29, false), (49, 4, 52, 29, false), (51, 29, 52, 29, false), (52, 29, 53, 29, false), (55, 4, 58, 29, false), (57, 4, 61, 29, false), (57, 29, 58, 29, false), (58, 29, 61, 29, true)],
  -- II(54,0)
  [(36, 4, 38, 4, true), (38, 4, 40, 4, true), (38, 4, 41, 29, false), (42, 3, 46, 28, false), (42, 4, 46, 29, false), (45, 4, 48, 29, false), (47, 29, 48, 29, false), (48, 29, 49, 29, false), (50, 4, 53, 29, false), (52, 29, 53, 29, false), (53, 29, 54, 29, false), (56, 4, 59, 29, false), (58, 4, 62, 29, false), (58, 29, 59, 29, false)],
  -- II(55,0)
  [(37, 4, 39, 4, true), (37, 4, 40, 29, false), (39, 4, 41, 4, true), (39, 4, 42, 29, false), (43, 3, 47, 28, false), (43, 4, 47, 29, false), (46, 4, 49, 29, false), (48, 29, 49, 29, false), (49, 29, 50, 29, false), (51, 4, 54, 29, false), (53, 29, 54, 29, false), (54, 29, 55, 29, false), (57, 4, 59, 29, false), (59, 4, 63, 29, false)],
  -- II(56,0)
  [(38, 4, 40, 4, true), (38, 4, 41, 29, false), (40, 4, 42, 4, true), (40, 4, 43, 29, false), (40, 29, 41, 29, false), (44, 3, 48, 28, false), (44, 4, 48, 29, false), (47, 4, 50, 29, false), (49, 29, 50, 29, false), (50, 29, 51, 29, false), (52, 4, 55, 29, false), (54, 29, 55, 29, false), (55, 29, 56, 29, false), (60, 4, 64, 29, false)]]

/-- The condition holds of the expanded message `w`. -/
def holds (w : Nat → W32) (c : Cond) : Bool :=
  ((w c.1).getLsbD c.2.1 ^^ (w c.2.2.1).getLsbD c.2.2.2.1) == c.2.2.2.2

end Hashes.Spec.Ubc
