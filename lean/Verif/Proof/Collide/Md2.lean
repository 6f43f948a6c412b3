import Verif.Proof.PadInj
import Verif.Proof.Md2
/- C63 for MD2. -/
namespace Hashes
open Spec

namespace Md2

/-- The first 16 bytes of the buffer after one block. -/
def xStep (x b : Bytes) : Bytes := (compress ⟨x, []⟩ b).x.take 16

/-- The blocks of the padded message and its checksum. -/
def input (m : Bytes) : List Bytes :=
  let l := chunks 16 (Spec.Md2.pad m)
  l ++ [Spec.Md2.checksum l]

theorem xStep_take (x b : Bytes) : xStep (x.take 16) b = xStep x b := by
  simp only [xStep, compress, List.take_take, Nat.min_self]

theorem compress_x (x C b : Bytes) : (compress ⟨x, C⟩ b).x = (compress ⟨x, []⟩ b).x := by simp only [compress]

theorem digestBlock_x (x b : Bytes) (hx : x.length = 48) : Spec.Md2.digestBlock x b = (compress ⟨x, []⟩ b).x := by
  rw [← compress_x x (List.replicate 16 0), compress_eq ⟨hx, by simp⟩]

theorem xStep_eq (x b : Bytes) (hx : x.length = 48) : xStep (x.take 16) b = (Spec.Md2.digestBlock x b).take 16 := by
  rw [xStep_take, xStep, digestBlock_x x b hx]

theorem foldl_take (l : List Bytes) (hl : ∀ b ∈ l, b.length = 16) (x : Bytes) (hx : x.length = 48) :
    (l.foldl Spec.Md2.digestBlock x).take 16 = l.foldl xStep (x.take 16) := by
  induction l generalizing x with
  | nil => rfl
  | cons b l ih =>
    rw [List.foldl_cons, List.foldl_cons, xStep_eq x b hx]
    refine ih (fun b hb => hl b (List.mem_cons_of_mem _ hb)) _ ?_
    rw [digestBlock_x x b hx, ← compress_x x (List.replicate 16 0)]
    exact (compress_shape ⟨hx, by simp⟩ (hl b List.mem_cons_self)).1

theorem length_pad_dvd (m : Bytes) : 16 ∣ (Spec.Md2.pad m).length := by
  simp only [Spec.Md2.pad, List.length_append, List.length_replicate]; omega

theorem length_checksum (l : List Bytes) (hl : ∀ b ∈ l, b.length = 16) : (Spec.Md2.checksum l).length = 16 := by
  have := (foldl_shape shape_init l hl).2
  rw [foldl_eq shape_init l hl] at this
  exact this

theorem digest_chain (m : Bytes) : md2.digest m = (input m).foldl xStep (List.replicate 16 0) := by
  rw [digest_eq, Spec.Md2.md2, input]
  have hc : ∀ b ∈ chunks 16 (Spec.Md2.pad m), b.length = 16 := fun b hb => length_of_mem_chunks hb
  refine foldl_take _ (fun b hb => ?_) (List.replicate 48 0) rfl
  rcases List.mem_append.1 hb with h | h
  · exact hc b h
  · rw [List.mem_singleton.1 h]; exact length_checksum _ hc

theorem pad_inj {m m' : Bytes} (h : Spec.Md2.pad m = Spec.Md2.pad m') : m = m' := by
  simp only [Spec.Md2.pad] at h
  have h1 : ∀ m : Bytes, (m ++ List.replicate (16 - m.length % 16) (BitVec.ofNat 8 (16 - m.length % 16))).getLastD 0 =
      BitVec.ofNat 8 (16 - m.length % 16) := fun m => by
    obtain ⟨k, hk⟩ : ∃ k, 16 - m.length % 16 = k + 1 := ⟨15 - m.length % 16, by omega⟩
    rw [hk, List.replicate_succ', ← List.append_assoc, List.getLastD_concat]
  have h2 := congrArg (fun l => l.getLastD (0 : Byte)) h
  simp only [h1] at h2
  have h3 := congrArg BitVec.toNat h2
  simp only [BitVec.toNat_ofNat] at h3
  have h4 : 16 - m.length % 16 = 16 - m'.length % 16 := by omega
  rw [h4] at h
  exact (List.append_inj' h rfl).1

theorem input_inj {m m' : Bytes} (h : input m = input m') : m = m' := by
  have h1 := (List.append_inj' h rfl).1
  have h2 := congrArg List.flatten h1
  rw [chunks_flatten (length_pad_dvd m), chunks_flatten (length_pad_dvd m')] at h2
  exact pad_inj h2

theorem length_xStep {x b : Bytes} (hx : x.length = 16) (hb : b.length = 16) : (xStep x b).length = 16 := by
  simp only [xStep, compress, List.length_take, length_rounds, List.length_append, List.length_zipWith, hx, hb]; decide

theorem length_digest (m : Bytes) : (md2.digest m).length = 16 := by
  have hc : ∀ b ∈ chunks 16 (Spec.Md2.pad m), b.length = 16 := fun b hb => length_of_mem_chunks hb
  have h : ∀ (l : List Bytes) (x : Bytes), (∀ b ∈ l, b.length = 16) → x.length = 16 → (l.foldl xStep x).length = 16 := by
    intro l
    induction l with
    | nil => intro x _ hx; exact hx
    | cons b l ih =>
      intro x hl hx
      rw [List.foldl_cons]
      exact ih _ (fun b hb => hl b (List.mem_cons_of_mem _ hb)) (length_xStep hx (hl b List.mem_cons_self))
  rw [digest_chain, input, List.foldl_append, List.foldl_cons, List.foldl_nil]
  exact length_xStep (h _ _ hc (by simp)) (length_checksum _ hc)

end Md2

/-- A nonempty iteration that returns to its start ends with a call that gives the start value. -/
theorem last_call {σ β : Type} (f : σ → β → σ) (iv : σ) (z x : List β) (hz : z ≠ []) (h : z.foldl f iv = iv) :
    ∃ p ∈ calls f iv (z ++ x), f p.1 p.2 = iv := by
  rcases List.eq_nil_or_concat z with rfl | ⟨z, b, rfl⟩
  · exact absurd rfl hz
  · rw [List.concat_eq_append, List.foldl_append] at h
    refine ⟨(z.foldl f iv, b), ?_, h⟩
    rw [List.concat_eq_append, calls_append, calls_append]
    simp [calls]

end Hashes
