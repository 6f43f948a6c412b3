import Verif.Base.Bytes
/-
Specification of "delimiter, minimal zero fill, suffix" padding, used by the Merkle–Damgård hashes.
-/
namespace Hashes.Spec

/-- Least number of zero bytes that makes `used` bytes plus the zeros a multiple of `bs`. -/
def zeroFill (bs used : Nat) : Nat := (bs - used % bs) % bs

/-- `m ‖ delim ‖ 0…0 ‖ suffix` with the least number of zeros giving a multiple of `bs`. -/
def mdPad (bs : Nat) (delim : Byte) (suffix : Bytes) (m : Bytes) : Bytes :=
  m ++ [delim] ++ List.replicate (zeroFill bs (m.length + 1 + suffix.length)) 0 ++ suffix

end Hashes.Spec
