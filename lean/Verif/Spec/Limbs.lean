import Verif.Base.Bytes
/- Integers stored in 64-bit limbs. -/
namespace Hashes.Spec

/-- Value of limbs, least significant first. -/
def limbsLE : List W64 → Nat
  | [] => 0
  | x :: l => x.toNat + 2 ^ 64 * limbsLE l

/-- Value of limbs, most significant first. -/
def limbsBE (l : List W64) : Nat := limbsLE l.reverse

end Hashes.Spec
