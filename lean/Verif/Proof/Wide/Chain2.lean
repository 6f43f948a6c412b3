import Verif.Proof.Wide.Basic
import Verif.Proof.Collide.Skein
import Verif.Proof.Collide.Streebog
/- The digests as an output function of an iteration: Skein of any output size, Streebog-256. -/
namespace Hashes
open Spec

namespace Skein
variable {n : Nat} (E : Cipher n)

/-- The output loop of `finalize_fixed_core`, /repo/skein/src/lib.rs:113-132. -/
def outWide (N : Nat) (x : Arr 64 n) : Bytes :=
  (List.range ((N + 8 * n - 1) / (8 * n))).flatMap fun i => outChunk E x i (((List.replicate N 0).drop (8 * n * i)).take (8 * n))

theorem mem_message {m : Bytes} : ∀ b ∈ skeinMessage (8 * n) m, b.2.length = 8 * n := by
  intro b hb
  obtain ⟨i, _, rfl⟩ := List.mem_map.1 hb
  exact length_blockAt _ _ _

theorem digest_wide (hn : 4 ≤ n) (N : Nat) (m : Bytes) (hm : m.length < 2 ^ 64) :
    (core E N).digest m = outWide E N ((skeinMessage (8 * n) m).foldl (uStep E) (init E N).x) := by
  obtain ⟨b, h1, h2, h3, h4⟩ := Core.digest_unfold (lawful (E := E) N (by omega)) m
  rw [h4]
  simp only [core, nFull] at h1 h2 h3 ⊢
  obtain ⟨q, hq⟩ : ∃ q, (m.length - 1) / (8 * n) = q := ⟨_, rfl⟩
  rw [hq] at h2 h3 ⊢
  have hE := octets_bytesCipher E
  have hqle : q * (8 * n) ≤ m.length - 1 := by rw [← hq]; exact Nat.div_mul_le_self _ _
  have hqlt : m.length - 1 < q * (8 * n) + 8 * n := by
    rw [← hq, ← Nat.succ_mul]
    exact Nat.lt_mul_of_div_lt (Nat.lt_succ_self _) (by omega)
  obtain ⟨u0, u1, u2⟩ := update_inv hE (init E N) rfl (show T1_FLAG_FIRST ||| T1_BLK_TYPE_MSG = _ by decide) m hm q q (Nat.le_refl _) (by omega)
  generalize updateBlocks E (init E N) (blocks (8 * n) q m) = s at u0 u1 u2 ⊢
  have hpad : (b.padWithZeros (8 * n)).1 = Spec.Skein.blockAt (8 * n) m q := by
    simp only [BlockBuffer.padWithZeros, BlockBuffer.content] at h2 ⊢
    rw [h2, h3, Spec.Skein.blockAt, List.take_of_length_le (by simp; omega)]
    simp
  have hbl : (Spec.Skein.blockAt (8 * n) m q).length = 8 * n := by simp [Spec.Skein.blockAt]; omega
  have hmsg : oct (processBlock E { s with t1 := s.t1 ||| T1_FLAG_FINAL } (b.padWithZeros (8 * n)).1 b.pos).x =
      oct ((skeinMessage (8 * n) m).foldl (uStep E) (init E N).x) := by
    rw [oct_foldl E _ mem_message, hpad, process_x hE _ _ hbl, skeinMessage, nBlocks_eq (by omega), hq]
    simp only
    rw [List.range_succ, List.map_append, List.foldl_append, List.map_cons, List.map_nil, List.foldl_cons, List.foldl_nil, List.foldl_map, u0, u1, u2]
    have et : (t1Word 48 (q == 0) false ||| T1_FLAG_FINAL) = t1Word 48 (q == 0) true := by cases (q == 0) <;> decide
    rw [et, ← BitVec.ofNat_add, h3, show q * (8 * n) + (m.length - q * (8 * n)) = m.length by omega, tweak_eq _ _ _ _ hm]
    have hmin : min m.length ((q + 1) * (8 * n)) = m.length := by rw [Nat.succ_mul]; omega
    rw [hmin, show (q == q + 1 - 1) = true by simp]
    rfl
  rw [finalizeInto]
  simp only [oct_inj hmsg, List.length_replicate]
  rfl

theorem message_suffix {nb : Nat} (hb : 0 < nb) {m m' : Bytes} (hm : m.length < 2 ^ 64) (hm' : m'.length < 2 ^ 64) (hne : m ≠ m') :
    ¬ skeinMessage nb m <:+ skeinMessage nb m' := by
  rintro ⟨z, h⟩
  refine input_suffix hb hm hm' hne ⟨z, ?_⟩
  rw [skeinInput, ← List.append_assoc]
  rw [skeinMessage, skeinMessage] at h
  rw [h]
  rfl

end Skein

namespace Streebog
open Whirlpool (mat flatten_mat)
set_option exponentiation.threshold 600

/-- The last line of `finalize_variable_core`, /repo/streebog/src/core_api.rs:133-141, and the truncation of
`CtVariableCoreWrapper`. -/
def outWide (N : Nat) (h : V8 W64) : Bytes := truncate .right N (toBytes h)

theorem digest_wide {N : Nat} {s0 : State} (h0 : new N = some s0) (m : Bytes) (hm : 8 * m.length < 2 ^ 448) :
    (varCore.ctWith N s0).digest m = outWide N ((streebogInput m).foldl gStep s0.h) := by
  have hs : mat s0.h = Spec.Streebog.iv N ∧ N ≤ 64 := by
    unfold new at h0
    split at h0
    · injection h0 with h0; subst h0; exact ⟨by decide +kernel, by decide⟩
    · injection h0 with h0; subst h0; exact ⟨by decide +kernel, by decide⟩
    · cases h0
  have key : Spec.Streebog.hash consts N m = (toBytes ((streebogInput m).foldl gStep s0.h)).drop (64 - N) := by
    rw [toBytes, ← flatten_mat, mat_foldl _ mem_input, hs.1]
    simp only [Spec.Streebog.hash, streebogInput]
    have hb := step_foldl (blocks 64 (m.length / 64) m) (Spec.Streebog.iv N) 0 0 (by rw [length_blocks]; omega)
    rw [Nat.mul_zero, Nat.zero_mod, length_blocks, Nat.zero_add, Nat.zero_add] at hb
    have hr : (m.drop (64 * (m.length / 64))).length = m.length % 64 := by rw [List.length_drop]; omega
    rw [hb, chunks_pad]
    generalize hrest : m.drop (64 * (m.length / 64)) ++ [1] ++ List.replicate (63 - (m.drop (64 * (m.length / 64))).length) (0 : Byte) = rest
    rw [List.zipIdx_append, List.map_append, List.foldl_append, List.foldl_append, length_blocks, Nat.zero_add]
    simp only [List.zipIdx_cons, List.zipIdx_nil, List.map_cons, List.map_nil, List.foldl_cons, List.foldl_nil, Spec.Streebog.step, hr]
    have e1 : 512 * (m.length / 64) + 8 * (m.length % 64) = 8 * m.length := by omega
    have e2 : (512 * (m.length / 64) + 8 * (m.length % 64)) % 2 ^ 512 = 8 * m.length := by rw [e1]; exact Nat.mod_eq_of_lt (by omega)
    rw [e2, Nat.mod_add_mod, List.map_append, List.sum_append, List.map_cons, List.map_nil, List.sum_cons, List.sum_nil, Nat.add_zero]
    have hmod : ∀ x : Nat, leBytes 64 (x % 2 ^ 512) = leBytes 64 x := fun x => by
      rw [show (2 : Nat) ^ 512 = 256 ^ 64 from by decide +kernel]; exact leBytes_mod 64 x
    have z0 : (leBytes 64 0) = List.replicate 64 0 := by decide +kernel
    simp only [gGrid, Spec.Streebog.vec, hmod, z0]
  rw [digest_eq h0 m hm, key, outWide, truncate]
  have hl : ∀ h, (toBytes h).length = 64 := fun h => by simp [toBytes, length_bytesOfWordsLE, V8.toList]
  rw [hl]

end Streebog
end Hashes
