import Verif.Proof.PadInj
import Verif.Props.Fsb
/- C63 for FSB. -/
namespace Hashes
open Spec

namespace Fsb
variable {P : Params} {PI : Bytes}

/-- One block; by C42 there is no panic, so the default is never used. -/
def hStep (P : Params) (PI : Bytes) (h b : Bytes) : Bytes := (compress P PI h b).getD []

theorem hStep_foldl (g : Good P) (hPI : P.n / P.r * (P.p / 8 + 1) ≤ PI.length) (l : List Bytes) (hl : ∀ b ∈ l, b.length = P.bs) (h : Bytes)
    (hh : h.length = P.r / 8) : l.foldl (hStep P PI) h = l.foldl (Spec.Fsb.compress (toSpec P) PI) h := by
  induction l generalizing h with
  | nil => rfl
  | cons b l ih =>
    rw [List.foldl_cons, List.foldl_cons, hStep, compress_eq g hPI h b hh (hl b List.mem_cons_self)]
    exact ih (fun b hb => hl b (List.mem_cons_of_mem _ hb)) _ (length_compress _ _)

theorem digest_chain (g : Good P) (hPI : P.n / P.r * (P.p / 8 + 1) ≤ PI.length) (m : Bytes) :
    (core P PI).digest m = some ((Whirlpool.whirlpool.digest ((chunks P.bs (mdPad P.bs 0x80 (beBytes 8 (8 * m.length)) m)).foldl (hStep P PI)
      (List.replicate (P.r / 8) 0))).take P.out) := by
  rw [digest_eq g hPI, hStep_foldl g hPI _ (fun b hb => length_of_mem_chunks hb) _ (by simp), Whirlpool.digest_eq, Spec.Fsb.hash]
  simp only [toSpec, g.s_bs']

end Fsb
end Hashes
