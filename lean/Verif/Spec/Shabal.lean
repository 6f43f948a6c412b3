import Verif.Base.Vec
import Verif.Spec.Padding
/-
Shabal, from the submission document "Shabal, a Submission to NIST's Cryptographic Hash Algorithm Competition" (2008), §2:
parameters (p, r) = (3, 12), 32-bit words, 16-word blocks, 64-bit block counter.
-/
namespace Hashes.Spec.Shabal

/-- Internal state `(A, B, C)`. -/
structure St where
  A : Arr 32 12
  B : Arr 32 16
  C : Arr 32 16
deriving DecidableEq

/-- `U(x) = 3x`, `V(x) = 5x` mod 2^32. -/
def U (x : W32) : W32 := 3 * x
def V (x : W32) : W32 := 5 * x

/-- Inner step `(i, j)` of the keyed permutation. -/
def step (C M : Arr 32 16) (ab : Arr 32 12 × Arr 32 16) (i j : Nat) : Arr 32 12 × Arr 32 16 :=
  let A := ab.1; let B := ab.2
  let x := (i + 16 * j) % 12
  let A' := A.set x (U (A.get x ^^^ V ((A.get ((i + 11 + 16 * j) % 12)).rotateLeft 15) ^^^ C.get ((24 - i) % 16))
    ^^^ B.get ((i + 13) % 16) ^^^ (B.get ((i + 9) % 16) &&& ~~~(B.get ((i + 6) % 16))) ^^^ M.get i)
  (A', B.set i ((B.get i).rotateLeft 1 ^^^ ~~~(A'.get x)))

/-- The keyed permutation `P_{M,C}(A, B)`. -/
def P (C M : Arr 32 16) (A : Arr 32 12) (B : Arr 32 16) : Arr 32 12 × Arr 32 16 :=
  let B := Arr.ofFn 16 fun i => (B.get i).rotateLeft 17
  let ab := (List.range 3).foldl (fun ab j => (List.range 16).foldl (fun ab i => step C M ab i j) ab) (A, B)
  let A := (List.range 36).foldl (fun A j => A.set (j % 12) (A.get (j % 12) + C.get ((j + 3) % 16))) ab.1
  (A, ab.2)

/-- One message round with counter `w`: `B ← B ⊞ M`, `A[0,1] ← A[0,1] ⊕ W`, `(A,B) ← P_{M,C}(A,B)`, `(A,B,C) ← (A, C ⊟ M, B)`. -/
def round (w : W64) (s : St) (M : Arr 32 16) : St :=
  let B := Arr.ofFn 16 fun i => s.B.get i + M.get i
  let A := Arr.ofFn 12 fun i => if i = 0 then s.A.get 0 ^^^ w.extractLsb' 0 32 else if i = 1 then s.A.get 1 ^^^ w.extractLsb' 32 32 else s.A.get i
  let ab := P s.C M A B
  ⟨ab.1, Arr.ofFn 16 fun i => s.C.get i - M.get i, ab.2⟩

/-- Initial state for `n` output bytes: from the zero state, the two prefix blocks `(8n, …, 8n+15)` and `(8n+16, …, 8n+31)`
with counters -1 and 0. -/
def iv (n : Nat) : St :=
  let z : St := ⟨Arr.ofFn 12 fun _ => 0, Arr.ofFn 16 fun _ => 0, Arr.ofFn 16 fun _ => 0⟩
  let s := round (-1) z (Arr.ofFn 16 fun i => BitVec.ofNat 32 (8 * n + i))
  round 0 s (Arr.ofFn 16 fun i => BitVec.ofNat 32 (8 * n + 16 + i))

/-- A message block as 16 little-endian words. -/
def words (b : Bytes) : Arr 32 16 := Arr.ofFn 16 (wordLE 32 b)

/-- Message rounds with counters 1, 2, …, k over the blocks `m ‖ 1 ‖ 0…0`; three final rounds with the last block and
the counter stopped at `k`; the output is the last `n` bytes of `C`. -/
def hash (n : Nat) (m : Bytes) : Bytes :=
  let bl := chunks 64 (mdPad 64 0x80 [] m)
  let k := bl.length
  let s := (List.range k).foldl (fun s i => round (BitVec.ofNat 64 (i + 1)) s (words (bl.getD i []))) (iv n)
  let last := words (bl.getD (k - 1) [])
  let s := (List.range 3).foldl (fun s _ => round (BitVec.ofNat 64 k) s last) s
  (bytesOfWordsLE s.C.toList).drop (64 - n)

end Hashes.Spec.Shabal
