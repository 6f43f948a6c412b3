import Verif.Spec.Grid
/- The AES S-box (FIPS 197 §5.1.1), computed. -/
namespace Hashes.Spec.Aes

/-- Multiplicative inverse in GF(2^8) (0 ↦ 0) as the 254th power, polynomial x^8+x^4+x^3+x+1. -/
def inv (x : Byte) : Byte :=
  let m := gmul 0x11B
  let x2 := m x x
  let x4 := m x2 x2
  let x8 := m x4 x4
  let x16 := m x8 x8
  let x32 := m x16 x16
  let x64 := m x32 x32
  let x128 := m x64 x64
  m (m (m x2 x4) (m x8 x16)) (m (m x32 x64) x128)

/-- The affine map: `b'_i = b_i ⊕ b_{i+4} ⊕ b_{i+5} ⊕ b_{i+6} ⊕ b_{i+7} ⊕ c_i`, `c = 0x63`. -/
def sbox (x : Byte) : Byte :=
  let b := inv x
  b ^^^ b.rotateLeft 1 ^^^ b.rotateLeft 2 ^^^ b.rotateLeft 3 ^^^ b.rotateLeft 4 ^^^ 0x63

end Hashes.Spec.Aes
