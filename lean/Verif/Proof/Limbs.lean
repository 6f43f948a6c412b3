import Verif.Spec.Limbs
import Verif.Proof.Words
/- Numbers in 64-bit limbs. -/
namespace Hashes
open Spec (limbsLE)

theorem limbsLE_lt (l : List W64) : limbsLE l < 2 ^ (64 * l.length) := by
  induction l with
  | nil => simp [limbsLE]
  | cons x l ih =>
    have := x.isLt
    rw [limbsLE, List.length_cons, Nat.mul_add, Nat.pow_add, Nat.mul_comm (2 ^ (64 * l.length))]
    have h : limbsLE l + 1 ≤ 2 ^ (64 * l.length) := ih
    have := Nat.mul_le_mul_left (2 ^ 64) h
    rw [Nat.mul_add] at this
    omega

theorem bytes_limbs (l : List W64) : bytesOfWordsLE l = leBytes (8 * l.length) (limbsLE l) := by
  induction l with
  | nil => rfl
  | cons x l ih =>
    have hx := x.isLt
    rw [List.length_cons, show 8 * (l.length + 1) = 8 + 8 * l.length by omega, leBytes_append, limbsLE]
    simp only [bytesOfWordsLE, List.flatMap_cons] at ih ⊢
    rw [ih]
    congr 1
    · exact leBytes_congr (by omega)
    · apply leBytes_congr; congr 1; omega

theorem limbs_words (b : Bytes) (n : Nat) (h : b.length = 8 * n) :
    limbsLE ((List.range n).map (wordLE 64 b)) = ofLE b := by
  have e := bytes_limbs ((List.range n).map (wordLE 64 b))
  rw [bytesOfWordsLE_range (by decide) _ _ (by omega), List.take_of_length_le (by omega)] at e
  have h1 := congrArg ofLE e
  rw [ofLE_leBytes] at h1
  rw [h1, Nat.mod_eq_of_lt]
  have := limbsLE_lt ((List.range n).map (wordLE 64 b))
  have h256 : (256 : Nat) = 2 ^ 8 := by decide
  rw [h256, ← Nat.pow_mul, show 8 * (8 * ((List.range n).map (wordLE 64 b)).length) = 64 * ((List.range n).map (wordLE 64 b)).length by omega]
  exact this

end Hashes
