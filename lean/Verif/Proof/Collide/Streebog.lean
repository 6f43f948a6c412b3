import Verif.Proof.PadInj
import Verif.Proof.Streebog
import Verif.Spec.Inputs
/- C63 for Streebog. -/
namespace Hashes
open Spec

namespace Streebog
open Whirlpool (mat flatten_mat)
set_option exponentiation.threshold 600

/-- The step function of the chain: counter and block as 64-byte strings. -/
def gStep (h : V8 W64) (nb : Bytes × Bytes) : V8 W64 := g h (fromBytes nb.1) (fromBytes nb.2)

/-- The same, on grids. -/
def gGrid (h : Spec.Grid) (nb : Bytes × Bytes) : Spec.Grid := Spec.Streebog.g consts (gridOf 8 8 nb.1) h (gridOf 8 8 nb.2)

theorem mat_foldl (l : List (Bytes × Bytes)) (hl : ∀ b ∈ l, b.1.length = 64 ∧ b.2.length = 64) (h : V8 W64) :
    mat (l.foldl gStep h) = l.foldl gGrid (mat h) := by
  induction l generalizing h with
  | nil => rfl
  | cons b l ih =>
    obtain ⟨h1, h2⟩ := hl b List.mem_cons_self
    rw [List.foldl_cons, List.foldl_cons, ih fun b hb => hl b (List.mem_cons_of_mem _ hb), gStep, mat_g, mat_fromBytes _ h1,
      mat_fromBytes _ h2]
    rfl

theorem step_foldl (l : List Bytes) (h : Spec.Grid) (k S : Nat) (hk : 512 * (k + l.length) < 2 ^ 512) :
    l.foldl (Spec.Streebog.step consts 512) (h, 512 * k, S % 2 ^ 512) =
      (((l.zipIdx k).map fun b => (leBytes 64 (512 * b.2), b.1)).foldl gGrid h, 512 * (k + l.length),
        (S + (l.map ofLE).sum) % 2 ^ 512) := by
  induction l generalizing h k S with
  | nil => simp
  | cons b l ih =>
    rw [List.length_cons] at hk
    rw [List.foldl_cons, Spec.Streebog.step]
    simp only
    rw [show 512 * k + 512 = 512 * (k + 1) by omega, Nat.mod_eq_of_lt (show 512 * (k + 1) < 2 ^ 512 by omega), Nat.mod_add_mod,
      ih _ (k + 1) _ (by omega), List.zipIdx_cons, List.map_cons, List.foldl_cons, List.map_cons, List.sum_cons, List.length_cons]
    rw [show k + 1 + l.length = k + (l.length + 1) by omega, Nat.add_assoc S]
    rfl

theorem chunks_pad (m : Bytes) : chunks 64 (mdPad 64 1 [] m) = blocks 64 (m.length / 64) m ++
    [m.drop (64 * (m.length / 64)) ++ [1] ++ List.replicate (63 - (m.drop (64 * (m.length / 64))).length) 0] := by
  have hr : (m.drop (64 * (m.length / 64))).length = m.length % 64 := by rw [List.length_drop]; omega
  have hlt : m.length % 64 < 64 := Nat.mod_lt _ (by decide)
  rw [chunks_mdPad (by decide), Nat.mul_comm (m.length / 64)]
  congr 1
  generalize m.drop (64 * (m.length / 64)) = r at hr ⊢
  have hz : zeroFill 64 (r.length + 1 + ([] : Bytes).length) = 63 - r.length := by
    rw [zeroFill, List.length_nil]; omega
  rw [mdPad, hz, List.append_nil]
  apply chunks_single (by decide)
  simp; omega

theorem mem_input {m : Bytes} : ∀ b ∈ streebogInput m, b.1.length = 64 ∧ b.2.length = 64 := by
  intro b hb
  rcases List.mem_append.1 hb with h | h
  · obtain ⟨⟨a, i⟩, h1, rfl⟩ := List.mem_map.1 h
    refine ⟨by simp, ?_⟩
    have := List.mem_zipIdx h1
    exact length_of_mem_chunks (by rw [this.2.2]; exact List.getElem_mem _)
  · rcases List.mem_cons.1 h with rfl | h
    · simp
    · rw [List.mem_singleton.1 h]; simp

theorem digest_chain (m : Bytes) (hm : 8 * m.length < 2 ^ 448) :
    (varCore.ctWith 64 ⟨zero, zero, zero⟩).digest m = toBytes ((streebogInput m).foldl gStep zero) := by
  rw [toBytes, ← flatten_mat, mat_foldl _ mem_input, digest_eq (show new 64 = some ⟨zero, zero, zero⟩ from rfl) m hm]
  simp only [Spec.Streebog.hash, streebogInput]
  have hb := step_foldl (blocks 64 (m.length / 64) m) (Spec.Streebog.iv 64) 0 0 (by rw [length_blocks]; omega)
  rw [Nat.mul_zero, Nat.zero_mod, length_blocks, Nat.zero_add, Nat.zero_add] at hb
  have hr : (m.drop (64 * (m.length / 64))).length = m.length % 64 := by rw [List.length_drop]; omega
  rw [hb, chunks_pad]
  generalize hrest : m.drop (64 * (m.length / 64)) ++ [1] ++ List.replicate (63 - (m.drop (64 * (m.length / 64))).length) (0 : Byte) = rest
  have hz : mat zero = Spec.Streebog.iv 64 := by decide +kernel
  rw [hz, List.zipIdx_append, List.map_append, List.foldl_append, List.foldl_append, length_blocks, Nat.zero_add]
  simp only [List.zipIdx_cons, List.zipIdx_nil, List.map_cons, List.map_nil, List.foldl_cons, List.foldl_nil, Spec.Streebog.step, hr]
  have e1 : 512 * (m.length / 64) + 8 * (m.length % 64) = 8 * m.length := by omega
  have e2 : (512 * (m.length / 64) + 8 * (m.length % 64)) % 2 ^ 512 = 8 * m.length := by rw [e1]; exact Nat.mod_eq_of_lt (by omega)
  rw [e2, Nat.mod_add_mod, List.map_append, List.sum_append, List.map_cons, List.map_nil, List.sum_cons, List.sum_nil, Nat.add_zero]
  have hmod : ∀ x : Nat, leBytes 64 (x % 2 ^ 512) = leBytes 64 x := fun x => by
    rw [show (2 : Nat) ^ 512 = 256 ^ 64 from by decide +kernel]; exact leBytes_mod 64 x
  have z0 : (leBytes 64 0) = List.replicate 64 0 := by decide +kernel
  simp only [gGrid, Spec.Streebog.vec, hmod, z0, Nat.sub_self, List.drop_zero]

theorem input_suffix {m m' : Bytes} (hm : 8 * m.length < 2 ^ 448) (hm' : 8 * m'.length < 2 ^ 448) (hne : m ≠ m') :
    ¬ streebogInput m <:+ streebogInput m' := by
  rintro ⟨z, h⟩
  simp only [streebogInput, ← List.append_assoc] at h
  obtain ⟨h1, h2⟩ := List.append_inj' h rfl
  have hl := leBytes_inj (Prod.mk.inj (List.cons.inj h2).1).2
  rw [Nat.mod_eq_of_lt (by omega), Nat.mod_eq_of_lt (by omega)] at hl
  have hl : m.length = m'.length := by omega
  have hlen : (chunks 64 (mdPad 64 1 [] m)).length = (chunks 64 (mdPad 64 1 [] m')).length := by
    rw [length_chunks, length_chunks]; simp [mdPad, hl]
  have hz : z = [] := by
    have := congrArg List.length h1
    rw [List.length_append, List.length_map, List.length_map, List.length_zipIdx, List.length_zipIdx, hlen] at this
    exact List.eq_nil_of_length_eq_zero (by omega)
  subst hz
  have h3 := congrArg (List.map Prod.snd) h1
  rw [List.nil_append, List.map_map, List.map_map] at h3
  have e : ∀ l : List Bytes, l.zipIdx.map (Prod.snd ∘ fun b : Bytes × Nat => (leBytes 64 (512 * b.2), b.1)) = l := fun l =>
    List.zipIdx_map_fst 0 l
  rw [e, e] at h3
  have h4 := congrArg List.flatten h3
  rw [chunks_flatten (length_mdPad_dvd (by decide)), chunks_flatten (length_mdPad_dvd (by decide))] at h4
  exact hne (mdPad_inj (by decide) rfl h4)

end Streebog
end Hashes
