import Verif.Spec.Calls
import Verif.Spec.Padding
import Verif.Spec.Skein
/- Collisions of hashes whose digest is less than the whole chaining value: used by C66. -/
namespace Hashes.Spec

/-- Two different values with the same output. -/
def OutCollide {σ ω : Type} (out : σ → ω) (s t : σ) : Prop := s ≠ t ∧ out s = out t

/-- Two iterations of `f` from `iv`: two calls of `f` collide, or the final values differ and have the same output. -/
def WideCollide {σ β ω : Type} (f : σ → β → σ) (iv : σ) (out : σ → ω) (x y : List β) : Prop :=
  CallsCollide f (calls f iv x) (calls f iv y) ∨ OutCollide out (x.foldl f iv) (y.foldl f iv)

/-- Different proper prefixes of `x` and `y` after which the part `cap` of the state is the same. -/
def InnerCollide {σ β κ : Type} (f : σ → β → σ) (iv : σ) (cap : σ → κ) (x y : List β) : Prop :=
  ∃ u v, u <+: x ∧ u ≠ x ∧ v <+: y ∧ v ≠ y ∧ u ≠ v ∧ cap (u.foldl f iv) = cap (v.foldl f iv)

/-- Two runs of a sponge: an inner collision, or the final states differ and have the same output. -/
def SpongeCollide {σ β κ ω : Type} (f : σ → β → σ) (iv : σ) (cap : σ → κ) (out : σ → ω) (x y : List β) : Prop :=
  InnerCollide f iv cap x y ∨ OutCollide out (x.foldl f iv) (y.foldl f iv)

/-- `m ‖ D ‖ 0…0` filled to whole blocks of `rate` bytes, with the top bit of the last byte set (FIPS 202, §5.1 and appendix B.2;
RFC 9861, §2.2). -/
def spongePad (rate : Nat) (D : Byte) (m : Bytes) : Bytes :=
  let p := m ++ [D] ++ List.replicate (rate - 1 - m.length % rate) 0
  p.dropLast ++ [p.getLastD 0 ||| 0x80]

/-- Shabal: the blocks of the padded message, the last one marked. -/
def shabalInput (m : Bytes) : List (Bytes × Bool) :=
  let l := chunks 64 (mdPad 64 0x80 [] m)
  l.dropLast.map (·, false) ++ [(l.getLastD [], true)]

/-- Skein: pairs of tweak and block of the message chain. -/
def skeinMessage (nb : Nat) (m : Bytes) : List (BitVec 128 × Bytes) :=
  let k := Skein.nBlocks nb m.length
  (List.range k).map fun i => (Skein.tweak 48 (min m.length ((i + 1) * nb)) (i == 0) (i == k - 1), Skein.blockAt nb m i)

end Hashes.Spec
