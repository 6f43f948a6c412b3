import Verif.Leak.Md2
import Verif.Proof.Leak.Tells
/- MD2: forgetting the observations; they determine the block. -/
namespace Hashes.Md2
open Leak

theorem compressL_val (st : State) (b : Bytes) : (compressL st b).val = compressC st b := by
  simp only [compressL, compressC, val_bind, val_loop, val_idx, val_upd, val_pure]; rfl

theorem compressL_tells {γ : Type} {k k' : State → Leak γ} (st : State) (b b' : Bytes) :
    Tells (fun _ _ => ∀ j, j < 16 → b[j]? = b'[j]?) (compressL st b >>= k) (compressL st b' >>= k') := by
  unfold compressL
  simp only [bind_assoc]
  refine Tells.skip (R := Any) (Num.loop trivial ?_) fun x x' _ _ _ => ?_
  · num
  refine Tells.skip (R := Any) (Num.loop trivial ?_) fun y y' _ _ _ => ?_
  · rintro ⟨x, t⟩ ⟨x', t'⟩ j _
    refine Num.bind (R := Any) (Num.loop trivial ?_) ?_
    · rintro ⟨x, t⟩ ⟨x', t'⟩ j _
      num
    · rintro ⟨x, t⟩ ⟨x', t'⟩ _
      num
  obtain ⟨y, t⟩ := y
  obtain ⟨y', t'⟩ := y'
  refine Tells.idx fun l l' _ hl hl' => ?_
  rw [hl] at hl'; cases hl'
  refine Tells.bind (Q := fun _ _ => ∀ j, j < 16 → b[j]? = b'[j]?) (R := Any) (Num.loop trivial ?_) ?_ ?_
  · rintro ⟨x, t⟩ ⟨x', t'⟩ j _
    num
  · refine fun r r' hr hr' h => (Tells.fold_range (Q := fun i s t => s = t ∧ ∀ j, j < i → b[j]? = b'[j]?) (R := Any) trivial ⟨rfl, by simp⟩ ?_ ?_ r r' hr hr' h).2
    · rintro ⟨x, t⟩ ⟨x', t'⟩ j _
      num
    · rintro ⟨c, l⟩ ⟨c', l'⟩ j hj ⟨e, hb⟩
      cases e
      refine Tells.idx fun u u' _ hu hu' => ?_
      rw [hu] at hu'; cases hu'
      refine Tells.idx fun v v' _ hv hv' => ?_
      refine Tells.idx fun w w' e hw hw' => ?_
      have e' : v = v' := by
        have := BitVec.eq_of_toNat_eq e
        simpa [BitVec.xor_left_inj] using this
      subst e'
      rw [hw] at hw'; cases hw'
      refine Tells.upd fun _ _ _ => Tells.idx fun z z' _ hz hz' => ?_
      rw [hz] at hz'; cases hz'
      refine Tells.pure ⟨rfl, fun i hi => ?_⟩
      by_cases h : i = j
      · subst h; rw [hv, hv']
      · exact hb i (by omega)
  · intro _ _ _ _ _ h
    exact Tells.const h

end Hashes.Md2
