import Verif.Props.CShake
import Verif.Proof.K12
/- C20 (length_encode), C17 and C23: KangarooTwelve. -/
namespace Hashes
open Spec Spec.Keccak K12

/-! ### C20: `length_encode` -/

theorem lengthEncode_shape {x : Nat} (hx : x < 2 ^ 64) : ∃ n, n ≤ 8 ∧ x < 256 ^ n ∧
    (n = 0 ∨ 256 ^ (n - 1) ≤ x) ∧ K12.lengthEncode x = beBytes n x ++ [BitVec.ofNat 8 n] := by
  obtain ⟨h1, h2⟩ := digits256_spec x x (Nat.le_refl _)
  have hd8 : digits256 x x ≤ 8 := by
    rcases Nat.lt_or_ge 8 (digits256 x x) with h | h
    · have := h2 (by omega)
      have : 256 ^ 8 ≤ 256 ^ (digits256 x x - 1) := Nat.pow_le_pow_right (by decide) (by omega)
      omega
    · exact h
  refine ⟨digits256 x x, hd8, h1, ?_, lengthEncode_eq x⟩
  by_cases h : digits256 x x = 0
  · exact .inl h
  · exact .inr (h2 (by omega))

/-- C20 (length_encode). The last byte is the number `n ≤ 8` of big-endian bytes before it; they decode to the value and
no shorter big-endian form exists. -/
theorem C20_lengthEncode (x : Nat) (hx : x < 2 ^ 64) :
    ∃ n t, n ≤ 8 ∧ K12.lengthEncode x = t ++ [BitVec.ofNat 8 n] ∧ t.length = n ∧ ofBE t = x ∧
      ∀ t' : Bytes, ofBE t' = x → n ≤ t'.length := by
  obtain ⟨n, h2, h3, h4, h5⟩ := lengthEncode_shape hx
  refine ⟨n, beBytes n x, h2, h5, by simp, ?_, ?_⟩
  · rw [ofBE_beBytes, Nat.mod_eq_of_lt h3]
  · intro t' ht'
    rcases h4 with h4 | h4
    · omega
    · rcases Nat.lt_or_ge t'.length n with h | h
      · have a := ofBE_lt t'
        have : 256 ^ t'.length ≤ 256 ^ (n - 1) := Nat.pow_le_pow_right (by decide) (by omega)
        omega
      · exact h

/-- C20 (length_encode). Suffix-decodable: in any context the encoded value can be cut off from the right. -/
theorem C20_lengthEncode_suffixFree (x y : Nat) (hx : x < 2 ^ 64) (hy : y < 2 ^ 64) (u v : Bytes)
    (h : u ++ K12.lengthEncode x = v ++ K12.lengthEncode y) : x = y ∧ u = v := by
  obtain ⟨n, hn8, hxn, -, e1⟩ := lengthEncode_shape hx
  obtain ⟨k, hk8, hyk, -, e2⟩ := lengthEncode_shape hy
  rw [e1, e2, ← List.append_assoc, ← List.append_assoc] at h
  obtain ⟨h1, h2⟩ := List.append_inj' h rfl
  have hnk : n = k := by
    have := congrArg BitVec.toNat (List.cons.inj h2).1
    simp only [BitVec.toNat_ofNat] at this
    omega
  subst hnk
  obtain ⟨h3, h4⟩ := List.append_inj' h1 (by simp)
  have := beBytes_inj h4
  rw [Nat.mod_eq_of_lt hxn, Nat.mod_eq_of_lt hyk] at this
  exact ⟨this, h3⟩

example : K12.lengthEncode 0 = [0] ∧ K12.lengthEncode 12 = [12, 1] ∧ K12.lengthEncode 65538 = [1, 0, 2, 3] := by
  decide +kernel

/-! ### C23 -/

/-- C23. `KangarooTwelve` with customization string `cust`, any chunking of the message, any sequence of output reads:
the bytes are KT128(M, C, total length). -/
theorem C23_k12 (cust : Bytes) (l : List Bytes) (sizes : List Nat) :
    (K12.xof.reads (K12.xof.reader ((K12.core cust).finish ((K12.core cust).updates (K12.core cust).new l))) sizes).1 =
      Spec.K12.kt128 l.flatten cust sizes.sum := by
  have L := K12.lawful cust
  have r := (Core.Rep.new L).updates L l
  rw [List.nil_append] at r
  obtain ⟨s, i, e⟩ := K12.finalize_inv r
  have hne : l.flatten ++ cust ++ Spec.K12.lengthEncode cust.length ≠ [] := by simp [Spec.K12.lengthEncode]
  obtain ⟨d, X, d1, d2, e2, hX⟩ := K12.tail_eq i hne
  have t := K12.tread ⟨d1, d2⟩ X sizes.sum
  rw [e, e2, K12.xof_reads t.1, t.2, hX]
  rfl

set_option maxRecDepth 100000 in
/-- Concrete case: KT128("", "") starts 1a c2 d4 50 fc 3b 42 05. -/
example : (K12.xof.reads (K12.xof.reader ((K12.core []).finish (K12.core []).new)) [3, 5]).1 =
    [0x1a, 0xc2, 0xd4, 0x50, 0xfc, 0x3b, 0x42, 0x05] := by decide +kernel

/-- C17 for the KangarooTwelve reader: how the output is split into reads does not matter. -/
theorem C17_k12 (cust : Bytes) (l : List Bytes) (sizes sizes' : List Nat) (h : sizes.sum = sizes'.sum) :
    let rd := K12.xof.reader ((K12.core cust).finish ((K12.core cust).updates (K12.core cust).new l))
    (K12.xof.reads rd sizes).1 = (K12.xof.reads rd sizes').1 := by
  intro rd
  rw [C23_k12, C23_k12, h]

set_option maxRecDepth 100000 in
/-- Concrete case on the tree branch: a 100-byte message with an 8100-byte customization string is 8203 bytes long after
encoding, so one chaining value is used. -/
example : 8192 < ([] ++ List.replicate 100 0 ++ List.replicate 8100 0 ++ Spec.K12.lengthEncode 8100 : Bytes).length := by
  decide +kernel

end Hashes
