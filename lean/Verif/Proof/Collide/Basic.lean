import Verif.Proof.PadInj
import Verif.Proof.Perm.Basic
/- Helpers for C63: existence of collisions. -/
namespace Hashes
open Spec

/-- Every function from byte strings to `n`-byte strings has a collision among the strings of `n + 1` bytes. -/
theorem collision_exists (f : Bytes → Bytes) (n : Nat) (hf : ∀ m, m.length = n + 1 → (f m).length = n) :
    ∃ m m', m ≠ m' ∧ m.length = n + 1 ∧ m'.length = n + 1 ∧ f m = f m' := by
  by_contra hc
  push Not at hc
  let A : Set Bytes := {l | l.length = n + 1}
  let B : Set Bytes := {l | l.length = n}
  have inj : Set.InjOn f A := by
    intro a ha b hb h
    by_contra hab
    exact hc a b hab ha hb h
  have maps : Set.MapsTo f A B := fun a ha => hf a ha
  -- `B` embeds in `A` by appending 0, so `f` followed by it is injective on `A` but misses `1 … 1`
  have fin : A.Finite := Perm.finite_lists (α := Byte) (n + 1)
  have g : Set.BijOn (fun l => f l ++ [0]) A A := by
    refine (Set.Finite.injOn_iff_bijOn_of_mapsTo fin ?_).1 ?_
    · intro a ha
      show (f a ++ [0]).length = n + 1
      rw [List.length_append, maps ha]; rfl
    · intro a ha b hb h
      exact inj ha hb (List.append_inj_left' h rfl)
  obtain ⟨a, ha, h⟩ := g.2.2 (show List.replicate n (0 : Byte) ++ [1] ∈ A by show _ = _; simp)
  have := (List.append_inj' h rfl).2
  exact absurd (List.cons.inj this).1 (by decide)

end Hashes
