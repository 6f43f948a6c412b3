/- The calls made by an iterated function: used by C50 and C63. -/
namespace Hashes.Spec

/-- Arguments of the successive calls of `f` when `l.foldl f s` is computed. -/
def calls {σ β : Type} (f : σ → β → σ) : σ → List β → List (σ × β)
  | _, [] => []
  | s, b :: l => (s, b) :: calls f (f s b) l

/-- Two different arguments, one of a call in `x` and one of a call in `y`, at which `f` agrees. -/
def CallsCollide {σ β : Type} (f : σ → β → σ) (x y : List (σ × β)) : Prop :=
  ∃ p ∈ x, ∃ q ∈ y, p ≠ q ∧ f p.1 p.2 = f q.1 q.2

end Hashes.Spec
