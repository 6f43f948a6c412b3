import Verif.Props.Streaming
import Verif.Proof.Whirlpool
import Verif.Spec.Limbs
/- C34: Whirlpool equals ISO/IEC 10118-3; C30 for its 256-bit length counter. -/
namespace Hashes

/-- C34. `Whirlpool` over any chunking of any message equals the specification given by the S-box mini-boxes, the
cyclical permutation, the circulant multiplication over GF(2^8) and Miyaguchi–Preneel chaining. -/
theorem C34_whirlpool (l : List Bytes) :
    Whirlpool.whirlpool.finish (Whirlpool.whirlpool.updates Whirlpool.whirlpool.new l) =
      Spec.Whirlpool.whirlpool l.flatten := by
  rw [C01_digest_of_chunks Whirlpool.whirlpool Whirlpool.lawful, Whirlpool.digest_eq]

/-- C34. Byte `t` of entry `x` of table `C_j` is the matrix entry times the S-box value. -/
theorem C34_tables (j : Nat) (hj : j < 8) (x : Nat) (hx : x < 256) (t : Nat) (ht : t < 8) :
    BitVec.ofNat 8 (((Whirlpool.C.getD j []).getD x 0).toNat / 2 ^ (8 * t)) =
    Spec.gmul 0x11D (Spec.Whirlpool.c.getD ((t + 8 - j) % 8) 0) (Spec.Whirlpool.S (BitVec.ofNat 8 x)) := by
  rw [ofNat_byteAt]; exact Whirlpool.tables j hj x hx t ht

theorem Whirlpool.val_eq (b : V4 W64) : Spec.limbsBE b.toList = Whirlpool.val b := by
  simp only [Spec.limbsBE, V4.toList, Whirlpool.val, List.reverse_cons, List.reverse_nil, List.nil_append,
    List.cons_append, Spec.limbsLE]
  omega

/-- C30 (Whirlpool). `update_len` adds to the 256-bit counter modulo 2^256. -/
theorem C30_whirlpool (b : V4 W64) (len : W64) :
    Spec.limbsBE (Whirlpool.updateLen b len).toList = (Spec.limbsBE b.toList + len.toNat) % 2 ^ 256 := by
  rw [Whirlpool.val_eq, Whirlpool.val_eq, Whirlpool.val_updateLen]

/-- C30 (Whirlpool). For slices below 2^55 blocks the single call `update_len(512 * blocks.len())` of the code and the
per-block additions of the model give the same limbs. -/
theorem C30_whirlpool_slice (b : V4 W64) (l : List Bytes) (h : l.length < 2 ^ 55) :
    Whirlpool.updateLen b (512 * BitVec.ofNat 64 l.length) = l.foldl (fun l _ => Whirlpool.updateLen l 512) b := by
  apply Whirlpool.val_inj
  rw [Whirlpool.val_blocks, Whirlpool.val_updateLen]
  have : ((512 : W64) * BitVec.ofNat 64 l.length).toNat = 512 * l.length := by
    rw [BitVec.toNat_mul, BitVec.toNat_ofNat, show (512 : W64).toNat = 512 from rfl]; omega
  rw [this]

/-- Concrete case: Whirlpool("abc"). -/
example : Whirlpool.whirlpool.finish (Whirlpool.whirlpool.updates Whirlpool.whirlpool.new [[0x61], [0x62, 0x63]]) =
    [0x4E, 0x24, 0x48, 0xA4, 0xC6, 0xF4, 0x86, 0xBB, 0x16, 0xB6, 0x56, 0x2C, 0x73, 0xB4, 0x02, 0x0B,
     0xF3, 0x04, 0x3E, 0x3A, 0x73, 0x1B, 0xCE, 0x72, 0x1A, 0xE1, 0xB3, 0x03, 0xD9, 0x7E, 0x6D, 0x4C,
     0x71, 0x81, 0xEE, 0xBD, 0xB6, 0xC5, 0x7E, 0x27, 0x7D, 0x0E, 0x34, 0x95, 0x71, 0x14, 0xCB, 0xD6,
     0xC7, 0x97, 0xFC, 0x9D, 0x95, 0xD8, 0xB5, 0x82, 0xD2, 0x25, 0x29, 0x20, 0x76, 0xD4, 0xEE, 0xF5] := by
  decide +kernel

/-- Concrete case: the carry runs through all limbs. -/
example : Whirlpool.updateLen ⟨5, 0xffffffffffffffff, 0xffffffffffffffff, 0xffffffffffffff00⟩ 512 = ⟨6, 0, 0, 0x100⟩ := by
  decide +kernel

end Hashes
