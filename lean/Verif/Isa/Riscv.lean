import Verif.Base.Bytes
import Verif.Base.Vec
/-
Semantics of the RISC-V instructions used by /repo/sha2/src/sha256/riscv_zknh*.rs and
/repo/sha2/src/sha512/riscv_zknh*.rs, transcribed from the RISC-V scalar cryptography specification (Zknh) and
the base ISA.  Part of the trusted base; written without reference to FIPS 180-4.
-/
namespace Hashes.Riscv

/-- Byte-addressed memory. -/
abbrev Mem := Nat → Byte

/-- Little-endian read of `w / 8` bytes at `a`: LW, LWU, LD, `ptr::read`. -/
def read (w : Nat) (m : Mem) (a : Nat) : BitVec w :=
  BitVec.ofNat w (ofLE ((List.range (w / 8)).map fun i => m (a + i)))

/-- `uN::to_be` on a little-endian target: reverse the bytes (REV8). -/
def toBe {w : Nat} (x : BitVec w) : BitVec w := BitVec.ofNat w (ofBE (leBytes (w / 8) x.toNat))

/-- LWU/LD (zero-extending to `xlen`), then `srl rd, rd, off`, the low `w` bits of the register as the result. -/
def loadSrl (xlen w : Nat) (m : Mem) (a off : Nat) : BitVec w :=
  (((read w m a).setWidth xlen) >>> (off % xlen)).setWidth w

/-- LWU/LD (zero-extending to `xlen`), then `sll rd, rd, off`, the low `w` bits of the register as the result. -/
def loadSll (xlen w : Nat) (m : Mem) (a off : Nat) : BitVec w :=
  (((read w m a).setWidth xlen) <<< (off % xlen)).setWidth w

/-- SHA256SUM0 -/
def sha256sum0 (x : W32) : W32 := x.rotateRight 2 ^^^ x.rotateRight 13 ^^^ x.rotateRight 22
/-- SHA256SUM1 -/
def sha256sum1 (x : W32) : W32 := x.rotateRight 6 ^^^ x.rotateRight 11 ^^^ x.rotateRight 25
/-- SHA256SIG0 -/
def sha256sig0 (x : W32) : W32 := x.rotateRight 7 ^^^ x.rotateRight 18 ^^^ x >>> 3
/-- SHA256SIG1 -/
def sha256sig1 (x : W32) : W32 := x.rotateRight 17 ^^^ x.rotateRight 19 ^^^ x >>> 10

/-- SHA512SUM0 (RV64) -/
def sha512sum0 (x : W64) : W64 := x.rotateRight 28 ^^^ x.rotateRight 34 ^^^ x.rotateRight 39
/-- SHA512SUM1 (RV64) -/
def sha512sum1 (x : W64) : W64 := x.rotateRight 14 ^^^ x.rotateRight 18 ^^^ x.rotateRight 41
/-- SHA512SIG0 (RV64) -/
def sha512sig0 (x : W64) : W64 := x.rotateRight 1 ^^^ x.rotateRight 8 ^^^ x >>> 7
/-- SHA512SIG1 (RV64) -/
def sha512sig1 (x : W64) : W64 := x.rotateRight 19 ^^^ x.rotateRight 61 ^^^ x >>> 6

/-- SHA512SUM0R (RV32) -/
def sha512sum0r (a b : W32) : W32 := a <<< 25 ^^^ a <<< 30 ^^^ a >>> 28 ^^^ b >>> 7 ^^^ b >>> 2 ^^^ b <<< 4
/-- SHA512SUM1R (RV32) -/
def sha512sum1r (a b : W32) : W32 := a <<< 23 ^^^ a >>> 14 ^^^ a >>> 18 ^^^ b >>> 9 ^^^ b <<< 18 ^^^ b <<< 14
/-- SHA512SIG0H (RV32) -/
def sha512sig0h (a b : W32) : W32 := a >>> 1 ^^^ a >>> 7 ^^^ a >>> 8 ^^^ b <<< 31 ^^^ b <<< 24
/-- SHA512SIG0L (RV32) -/
def sha512sig0l (a b : W32) : W32 := a >>> 1 ^^^ a >>> 7 ^^^ a >>> 8 ^^^ b <<< 31 ^^^ b <<< 25 ^^^ b <<< 24
/-- SHA512SIG1H (RV32) -/
def sha512sig1h (a b : W32) : W32 := a <<< 3 ^^^ a >>> 6 ^^^ a >>> 19 ^^^ b >>> 29 ^^^ b <<< 13
/-- SHA512SIG1L (RV32) -/
def sha512sig1l (a b : W32) : W32 := a <<< 3 ^^^ a >>> 6 ^^^ a >>> 19 ^^^ b >>> 29 ^^^ b <<< 26 ^^^ b <<< 13

end Hashes.Riscv
