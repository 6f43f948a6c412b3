import Verif.Proof.Collide.Gost94
import Verif.Proof.Belt
import Verif.Props.Reduction
/- C63 for BelT hash. -/
namespace Hashes
open Spec

namespace Belt
variable (E : Cipher)

/-- belt-compress on a 32-byte block and the chaining value. -/
def yStep (h : V8 W32) (b : Bytes) : V4 W32 × V8 W32 := beltCompress E (w4 (b.take 16)) (w4 (b.drop 16)) h

/-- The arguments of the chain: the blocks of the zero-padded message, then the bit length and the sum of the first outputs of
belt-compress. -/
def input (m : Bytes) : List Bytes :=
  let l := chunks 32 (zpad 32 m)
  let s := (calls (fun h b => (yStep E h b).2) H0 l).foldl (fun s c => xor s (yStep E c.1 c.2).1) ⟨0, 0, 0, 0⟩
  l ++ [leBytes 16 (8 * m.length) ++ b4 s]

theorem w4_block (b : Bytes) (hb : b.length = 32) : w4 (b.take 16) = ⟨getU32 b 0, getU32 b 1, getU32 b 2, getU32 b 3⟩ ∧
    w4 (b.drop 16) = ⟨getU32 b 4, getU32 b 5, getU32 b 6, getU32 b 7⟩ := by
  obtain ⟨h1, h2⟩ := block_words b hb
  rw [← h1, ← h2, w4_b4, w4_b4]; exact ⟨rfl, rfl⟩

theorem foldl_state (l : List Bytes) (hl : ∀ b ∈ l, b.length = 32) (st : State) : l.foldl (compressBlock E) st =
    ⟨st.r, (calls (fun h b => (yStep E h b).2) st.h l).foldl (fun s c => xor s (yStep E c.1 c.2).1) st.s,
      l.foldl (fun h b => (yStep E h b).2) st.h⟩ := by
  induction l generalizing st with
  | nil => rfl
  | cons b l ih =>
    obtain ⟨h1, h2⟩ := w4_block b (hl b List.mem_cons_self)
    have e : compressBlock E st b = ⟨st.r, xor st.s (yStep E st.h b).1, (yStep E st.h b).2⟩ := by
      simp only [yStep, h1, h2]; rfl
    rw [List.foldl_cons, List.foldl_cons, calls, List.foldl_cons, ih (fun b hb => hl b (List.mem_cons_of_mem _ hb)), e]

theorem digest_chain (m : Bytes) : (belt E).digest m = b8 ((input E m).foldl (fun h b => (yStep E h b).2) H0) := by
  obtain ⟨b, h1, h2, h3, h4⟩ := Core.digest_eager (lawful E) rfl m
  rw [h4]
  simp only [belt] at h1 h2 h3 ⊢
  have hall : ∀ b ∈ chunks 32 (zpad 32 m), b.length = 32 := fun b hb => length_of_mem_chunks hb
  have hc : b.data.take (m.length % 32) = m.drop (32 * (m.length / 32)) := by rw [← h3, Nat.mul_comm]; exact h2
  -- the state after the padded message
  have key : (if m.length % 32 ≠ 0 then compressBlock E (updateBlocks E init (blocks 32 (m.length / 32) m)) (b.padWithZeros 32).1
      else updateBlocks E init (blocks 32 (m.length / 32) m)) =
      (chunks 32 (zpad 32 m)).foldl (compressBlock E) ⟨BitVec.ofNat 128 (m.length / 32), ⟨0, 0, 0, 0⟩, H0⟩ := by
    rw [chunks_zpad (by decide), List.foldl_append, updateBlocks, length_blocks]
    simp only [BlockBuffer.padWithZeros, h3, hc]
    rw [show init.r + BitVec.ofNat 128 (m.length / 32) = BitVec.ofNat 128 (m.length / 32) from BitVec.zero_add _]
    by_cases h0 : m.length % 32 = 0
    · rw [if_neg (by omega), if_pos h0]; rfl
    · rw [if_pos h0, if_neg h0]; rfl
  simp only [finalize, h3]
  rw [key, foldl_state E _ hall, input, List.foldl_append]
  simp only [List.foldl_cons, List.foldl_nil]
  rw [yStep, List.take_left' (by simp), List.drop_left' (by simp), w4_b4]
  have hr : w4 (leBytes 16 (8 * m.length)) = encodeR (8 * (32 * BitVec.ofNat 128 (m.length / 32) + BitVec.ofNat 128 (m.length % 32))) := by
    have hl : leBytes 16 (8 * m.length) = b4 (encodeR (8 * (32 * BitVec.ofNat 128 (m.length / 32) + BitVec.ofNat 128 (m.length % 32)))) := by
      rw [encode_eq, show (8 : W128) = BitVec.ofNat 128 8 from rfl, show (32 : W128) = BitVec.ofNat 128 32 from rfl,
        ← BitVec.ofNat_mul, ← BitVec.ofNat_add, ← BitVec.ofNat_mul, leBytes_counter (by decide)]
      congr 1; omega
    rw [hl, w4_b4]
  rw [hr]; rfl

theorem input_suffix {m m' : Bytes} (hm : 8 * m.length < 2 ^ 128) (hm' : 8 * m'.length < 2 ^ 128) (hne : m ≠ m') :
    ¬ input E m <:+ input E m' := by
  rintro ⟨z, h⟩
  simp only [input, ← List.append_assoc] at h
  obtain ⟨h1, h2⟩ := List.append_inj' h rfl
  have hl := leBytes_inj (List.append_inj (List.cons.inj h2).1 (by simp)).1
  rw [Nat.mod_eq_of_lt hm, Nat.mod_eq_of_lt hm'] at hl
  have hl : m.length = m'.length := by omega
  have hz : z = [] := by
    have := congrArg List.length h1
    rw [List.length_append, length_chunks, length_chunks, zpad, zpad, List.length_append, List.length_append, hl] at this
    exact List.eq_nil_of_length_eq_zero (by simpa using this)
  subst hz
  exact hne (chunks_zpad_inj (by decide) hl h1)

theorem b8_inj {a b : V8 W32} (h : b8 a = b8 b) : a = b := by rw [← w8_b8 a, ← w8_b8 b, h]

end Belt
end Hashes
