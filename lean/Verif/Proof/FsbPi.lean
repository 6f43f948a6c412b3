import Verif.Proof.PiParity
import Verif.Proof.Fsb
/- FSB with the table of the crate is FSB with the matrix taken from the decimals of π. -/
namespace Hashes.Fsb
open Spec.Fsb (bit)

theorem bit_drop (l : Bytes) (a j : Nat) : bit (l.drop a) j = bit l (8 * a + j) := by
  rw [bit, bit, getD_drop', show (8 * a + j) / 8 = a + j / 8 by omega, show (8 * a + j) % 8 = j % 8 by omega]

variable {P : Params}

theorem column_pi (g : Good P) (hPI : P.n / P.r * (P.p / 8 + 1) ≤ 272384) (c : Nat) (hc : c < P.n) (j : Nat) :
    Spec.Fsb.column (toSpec P) piBin c j = Spec.Fsb.piColumn (toSpec P) c j := by
  show bit (piBin.drop (c / P.r * (P.p / 8 + 1))) ((j + P.p - c % P.r) % P.p) =
    decide (Spec.Pi.decimal (8 * (P.p / 8 + 1) * (c / P.r) + (j + P.p - c % P.r) % P.p) % 2 = 1)
  have hr : 0 < P.r := by have := g.w_pos; rw [g.r_w]; omega
  have hp : 0 < P.p := Nat.lt_of_lt_of_le hr g.r_p
  have hx : (j + P.p - c % P.r) % P.p < P.p := Nat.mod_lt _ hp
  have hq : c / P.r + 1 ≤ P.n / P.r := by
    rw [g.n_r] at hc
    exact Nat.div_lt_of_lt_mul hc
  have hm : (c / P.r + 1) * (P.p / 8 + 1) ≤ P.n / P.r * (P.p / 8 + 1) := Nat.mul_le_mul_right _ hq
  rw [Nat.add_mul, Nat.one_mul] at hm
  rw [bit_drop, show 8 * (P.p / 8 + 1) * (c / P.r) = 8 * (c / P.r * (P.p / 8 + 1)) by ring, Pi.bit_piBin _ (by omega)]

theorem foldl_congr_mem {α β : Type} (f g : β → α → β) (l : List α) (b : β) (h : ∀ b, ∀ x ∈ l, f b x = g b x) : l.foldl f b = l.foldl g b := by
  induction l generalizing b with
  | nil => rfl
  | cons x l ih => rw [List.foldl_cons, List.foldl_cons, h b x (by simp), ih _ fun b y hy => h b y (by simp [hy])]

theorem compress_pi (g : Good P) (hPI : P.n / P.r * (P.p / 8 + 1) ≤ 272384) (h m : Bytes) :
    Spec.Fsb.compress (toSpec P) piBin h m = Spec.Fsb.piCompress (toSpec P) h m := by
  rw [Spec.Fsb.compress, Spec.Fsb.piCompress]
  congr 1
  funext j
  refine foldl_congr_mem _ _ _ _ fun b i hi => ?_
  rw [column_pi g hPI _ (W_lt g h m i (List.mem_range.1 hi))]

theorem hash_pi (g : Good P) (hPI : P.n / P.r * (P.p / 8 + 1) ≤ 272384) (m : Bytes) :
    Spec.Fsb.hash (toSpec P) piBin m = Spec.Fsb.piHash (toSpec P) m := by
  rw [Spec.Fsb.hash, Spec.Fsb.piHash, show Spec.Fsb.compress (toSpec P) piBin = Spec.Fsb.piCompress (toSpec P) from
    funext fun h => funext fun m => compress_pi g hPI h m]

end Hashes.Fsb
