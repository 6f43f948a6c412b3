import Verif.Isa.Arm
import Verif.Proof.Sha256
/- What the AArch64 intrinsics do to registers given by their lanes. -/
namespace Hashes
open Spec

theorem maj_alt {w : Nat} (x y z : BitVec w) : (x &&& y) ||| ((x ||| y) &&& z) = Maj x y z := by
  unfold Maj
  ext i hi
  simp only [BitVec.getElem_xor, BitVec.getElem_and, BitVec.getElem_or]
  cases x[i] <;> cases y[i] <;> cases z[i] <;> rfl

namespace Arm
open Simd

theorem elems_q (a b c e : W32) : elems (q a b c e) = ⟨a, b, c, e⟩ := by simp [elems]
theorem ofElems_q (v : V4 W32) : ofElems v = q v.x0 v.x1 v.x2 v.x3 := pack32_eq _
theorem add32_q (a b c e a' b' c' e' : W32) :
    vaddq_u32 (q a b c e) (q a' b' c' e') = q (a + a') (b + b') (c + c') (e + e') := zip32_q ..
theorem add64_d (a b a' b' : W64) : vaddq_u64 (d a b) (d a' b') = d (a + a') (b + b') := zip64_d ..
theorem dup_q (x : W32) : vdupq_n_u32 x = q x x x x := pack32_eq _
theorem ext1_d (a b a' b' : W64) : vextq_u64 (d a b) (d a' b') 1 = d b a' := by
  simp [vextq_u64, pack64_eq]

/-- Loading a block with REV32 gives its big-endian words. -/
theorem load_be32 (block : Bytes) (j : Nat) (hl : 16 * (j + 1) ≤ block.length) :
    vrev32q_u8 (load block (16 * j)) =
      q (wordBE 32 block (4 * j)) (wordBE 32 block (4 * j + 1)) (wordBE 32 block (4 * j + 2))
        (wordBE 32 block (4 * j + 3)) := by
  have key : ∀ i < 4, lane 32 i (vrev32q_u8 (load block (16 * j))) = wordBE 32 block (4 * j + i) := by
    intro i hi
    apply BitVec.eq_of_getLsbD_eq
    intro k hk
    rw [getLsbD_wordBE _ _ _ (by decide) (by omega), getLsbD_lane, vrev32q_u8, getLsbD_pack (by decide),
      getLsbD_lane, load, getLsbD_pack (by decide)]
    have e1 : (32 * i + k) / 8 / 4 = i := by omega
    have e2 : (32 * i + k) / 8 % 4 = k / 8 := by omega
    have e3 : (32 * i + k) % 8 = k % 8 := by omega
    rw [e1, e2, e3, Nat.mul_add_div (by decide), Nat.mul_add_mod, Nat.div_eq_of_lt (Nat.mod_lt k (by decide)),
      Nat.mod_mod, show 16 * j + (4 * i + (3 - k / 8) + 0) = 32 / 8 * (4 * j + i) + (32 / 8 - 1 - k / 8) by omega]
    have b1 : 32 * i + k < 128 := by omega
    have b2 : 8 * (4 * i + (3 - k / 8)) + k % 8 < 128 := by omega
    simp [hk, b1, b2, Nat.mod_lt k]
  exact ext32 (key 0 (by decide)) (key 1 (by decide)) (key 2 (by decide)) (key 3 (by decide))

/-- Loading a block with REV64 gives its big-endian words. -/
theorem load_be64 (block : Bytes) (j : Nat) (hl : 16 * (j + 1) ≤ block.length) :
    vrev64q_u8 (load block (16 * j)) = d (wordBE 64 block (2 * j)) (wordBE 64 block (2 * j + 1)) := by
  have key : ∀ i < 2, lane 64 i (vrev64q_u8 (load block (16 * j))) = wordBE 64 block (2 * j + i) := by
    intro i hi
    apply BitVec.eq_of_getLsbD_eq
    intro k hk
    rw [getLsbD_wordBE _ _ _ (by decide) (by omega), getLsbD_lane, vrev64q_u8, getLsbD_pack (by decide),
      getLsbD_lane, load, getLsbD_pack (by decide)]
    have e1 : (64 * i + k) / 8 / 8 = i := by omega
    have e2 : (64 * i + k) / 8 % 8 = k / 8 := by omega
    have e3 : (64 * i + k) % 8 = k % 8 := by omega
    rw [e1, e2, e3, Nat.mul_add_div (by decide), Nat.mul_add_mod, Nat.div_eq_of_lt (Nat.mod_lt k (by decide)),
      Nat.mod_mod, show 16 * j + (8 * i + (7 - k / 8) + 0) = 64 / 8 * (2 * j + i) + (64 / 8 - 1 - k / 8) by omega]
    have b1 : 64 * i + k < 128 := by omega
    have b2 : 8 * (8 * i + (7 - k / 8)) + k % 8 < 128 := by omega
    simp [hk, b1, b2, Nat.mod_lt k]
  exact ext64 (key 0 (by decide)) (key 1 (by decide))

end Arm
end Hashes
