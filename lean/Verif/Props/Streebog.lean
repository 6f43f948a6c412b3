import Verif.Props.Streaming
import Verif.Proof.Streebog
import Verif.Props.CShake -- not used: keeps memory-hungry modules from being checked at the same time
/- C36: Streebog equals GOST R 34.11-2012; C30 for its 512-bit registers. -/
namespace Hashes

set_option exponentiation.threshold 1000

/-- The iteration constants of the code (parameter of the specification): the twelve 64-byte rows of `C`. -/
def streebogC : List Spec.Grid := Streebog.C.map (Spec.gridOf 8 8)

/-- C36. `Streebog256` and `Streebog512`: any chunking of any message whose bit length is below 2^448 gives the standard
digest. (The length register of the standard has 512 bits; the code's carry stops at limb 6, see `C30_streebog_n_violated`.) -/
theorem C36_streebog (N : Nat) (hN : N = 32 ∨ N = 64) : ∃ c, Streebog.core N = some c ∧
    ∀ l : List Bytes, 8 * l.flatten.length < 2 ^ 448 →
      c.finish (c.updates c.new l) = Spec.Streebog.hash streebogC N l.flatten := by
  obtain ⟨s0, h0⟩ : ∃ s0, Streebog.new N = some s0 := by
    rcases hN with rfl | rfl
    · exact ⟨_, rfl⟩
    · exact ⟨_, rfl⟩
  refine ⟨Streebog.varCore.ctWith N s0, ?_, fun l hl => ?_⟩
  · exact VarCore.ct_some (v := Streebog.varCore) (by rcases hN with rfl | rfl <;> decide) h0
  · rw [C01_digest_of_chunks _ (Streebog.lawful.ct N s0)]
    exact Streebog.digest_eq h0 _ hl

/-- C36. Every table entry is the linear map `l` of the standard applied to a vector with one byte `π(x)` at position `j`. -/
theorem C36_tables (j x u : Nat) (hj : j < 8) (hx : x < 256) (hu : u < 8) :
    (leBytes 8 ((Streebog.SHUFFLED_LIN_TABLE.getD j []).getD x 0).toNat).getD u 0 =
      Spec.Streebog.l ((List.replicate j 0) ++ [BitVec.ofNat 8 (Spec.Streebog.pi x)] ++ List.replicate (7 - j) 0) u := by
  rw [leBytes_word, getD_map_range _ _ _ hu, Streebog.table_get hj hx, Streebog.byteAt_accum hj hx hu, Spec.Streebog.l,
    show ∀ f, Spec.xorSum 64 f = Spec.xorSum (8 * 8) f from fun _ => rfl, Streebog.xorSum_mul]
  exact (Streebog.xorSum_single 8 j hj _ (fun i _ hij => Streebog.other_byte hj hij _ u) |>.trans
    (Streebog.this_byte hj _ u)).symm

/-- C36. `π` is a permutation of the bytes. -/
theorem C36_sbox : Streebog.P.length = 256 ∧ ∀ y < 256, (Streebog.P.map BitVec.toNat).contains y = true := by decide +kernel

/-- C30 (Streebog). The checksum register `Σ` is addition modulo 2^512. -/
theorem C30_streebog_sigma (s m : V8 W64) :
    Spec.limbsLE (Streebog.updateSigma s m).toList = (Spec.limbsLE s.toList + Spec.limbsLE m.toList) % 2 ^ 512 :=
  Streebog.val_updateSigma s m

/-- C30 (Streebog). The length register `N` is exact as long as the sum is below 2^448. Full statement (false, see
`C30_streebog_n_violated`): the same with `% 2 ^ 512` and no hypothesis on the sum. `len` is at most 64 in the code. -/
theorem C30_streebog_n_partial (n : V8 W64) (len : Nat) (hl : len ≤ 64)
    (h : Spec.limbsLE n.toList + 8 * len < 2 ^ 448) :
    Spec.limbsLE (Streebog.updateN n (BitVec.ofNat 64 len)).toList = Spec.limbsLE n.toList + 8 * len := by
  have h8 : ((8 : W64) * BitVec.ofNat 64 len).toNat = 8 * len := by
    rw [BitVec.toNat_mul, BitVec.toNat_ofNat, show (8 : W64).toNat = 8 from rfl]; omega
  have := Streebog.val_updateN_exact n (BitVec.ofNat 64 len) (by rw [h8]; exact h)
  rwa [h8] at this

/-- C30 (Streebog), the claim is violated: with `N = 2^448 - 512`, one more block gives 0, not 2^448. -/
theorem C30_streebog_n_violated : ∃ n : V8 W64,
    Spec.limbsLE (Streebog.updateN n 64).toList ≠ (Spec.limbsLE n.toList + 512) % 2 ^ 512 :=
  ⟨⟨-512, -1, -1, -1, -1, -1, -1, 0⟩, by decide +kernel⟩

/-- Concrete case: first bytes of Streebog-256 of the empty message. -/
example : (Streebog.core 32).map (fun c => (c.finish c.new).take 4) = some [0x3f, 0x53, 0x9a, 0x21] := by
  decide +kernel

/-- Concrete case: a carry through four limbs. -/
example : Streebog.updateN ⟨-8, -1, -1, -1, 5, 0, 0, 0⟩ 1 = ⟨0, 0, 0, 0, 6, 0, 0, 0⟩ := by decide

end Hashes
