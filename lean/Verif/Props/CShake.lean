import Verif.Props.Sha3
import Verif.Props.Kupyna -- not used: keeps memory-hungry modules from being checked at the same time
/- C18, C19, C20 (left_encode), C21: cSHAKE. -/
namespace Hashes
open Spec Spec.Keccak Sha3

/-! ### C20: `left_encode` -/

theorem leftEncode_shape {x : Nat} (hx : x < 2 ^ 64) : ∃ n, 1 ≤ n ∧ n ≤ 8 ∧ x < 256 ^ n ∧
    (n = 1 ∨ 256 ^ (n - 1) ≤ x) ∧ Spec.Keccak.leftEncode x = BitVec.ofNat 8 n :: beBytes n x := by
  obtain ⟨h1, h2⟩ := digits256_spec x x (Nat.le_refl _)
  have hd8 : digits256 x x ≤ 8 := by
    rcases Nat.lt_or_ge 8 (digits256 x x) with h | h
    · have := h2 (by omega)
      have : 256 ^ 8 ≤ 256 ^ (digits256 x x - 1) := Nat.pow_le_pow_right (by decide) (by omega)
      omega
    · exact h
  refine ⟨max 1 (digits256 x x), by omega, by omega, ?_, ?_, rfl⟩
  · exact Nat.lt_of_lt_of_le h1 (Nat.pow_le_pow_right (by decide) (by omega))
  · by_cases h : digits256 x x ≤ 1
    · left; omega
    · right
      rw [show max 1 (digits256 x x) = digits256 x x by omega]
      exact h2 (by omega)

theorem leftEncode_append_inj {x y : Nat} (hx : x < 2 ^ 64) (hy : y < 2 ^ 64) {u v : Bytes}
    (h : Spec.Keccak.leftEncode x ++ u = Spec.Keccak.leftEncode y ++ v) : x = y ∧ u = v := by
  obtain ⟨n, -, hn8, hxn, -, e1⟩ := leftEncode_shape hx
  obtain ⟨k, -, hk8, hyk, -, e2⟩ := leftEncode_shape hy
  rw [e1, e2] at h
  simp only [List.cons_append, List.cons.injEq] at h
  have hnk : n = k := by
    have := congrArg BitVec.toNat h.1
    simp only [BitVec.toNat_ofNat] at this
    omega
  subst hnk
  obtain ⟨h1, h2⟩ := List.append_inj h.2 (by simp)
  have := beBytes_inj h1
  rw [Nat.mod_eq_of_lt hxn, Nat.mod_eq_of_lt hyk] at this
  exact ⟨this, h2⟩

/-- C20 (left_encode). Whatever the 9-byte scratch array held: the result is one length byte `n` in 1..8 followed by
`n` big-endian bytes that decode to the value, and no shorter big-endian form exists. -/
theorem C20_leftEncode (v : W64) (b : Bytes) (hb : b.length = 9) :
    ∃ n t, 1 ≤ n ∧ n ≤ 8 ∧ (Sha3.leftEncode v b).1 = BitVec.ofNat 8 n :: t ∧ t.length = n ∧ ofBE t = v.toNat ∧
      ∀ t' : Bytes, t' ≠ [] → ofBE t' = v.toNat → n ≤ t'.length := by
  rw [(leftEncode_eq v hb).1]
  obtain ⟨n, h1, h2, h3, h4, h5⟩ := leftEncode_shape v.isLt
  refine ⟨n, beBytes n v.toNat, h1, h2, h5, by simp, ?_, ?_⟩
  · rw [ofBE_beBytes, Nat.mod_eq_of_lt h3]
  · intro t' hne ht'
    rcases h4 with h4 | h4
    · have : t'.length ≠ 0 := by simpa using hne
      omega
    · rcases Nat.lt_or_ge t'.length n with h | h
      · have a := ofBE_lt t'
        have : 256 ^ t'.length ≤ 256 ^ (n - 1) := Nat.pow_le_pow_right (by decide) (by omega)
        omega
      · exact h

/-- C20 (left_encode). No encoding is a proper prefix of another: decoding is unambiguous in any context. -/
theorem C20_leftEncode_prefixFree (v w : W64) (b b' u u' : Bytes) (hb : b.length = 9) (hb' : b'.length = 9)
    (h : (Sha3.leftEncode v b).1 ++ u = (Sha3.leftEncode w b').1 ++ u') : v = w ∧ u = u' := by
  rw [(leftEncode_eq v hb).1, (leftEncode_eq w hb').1] at h
  obtain ⟨h1, h2⟩ := leftEncode_append_inj v.isLt w.isLt h
  exact ⟨BitVec.eq_of_toNat_eq h1, h2⟩

example : (Sha3.leftEncode 0 (List.replicate 9 7)).1 = [1, 0] ∧
    (Sha3.leftEncode 65536 (List.replicate 9 7)).1 = [3, 1, 0, 0] := by decide

/-! ### C18 -/

/-- The reads a user performs on a finished cSHAKE hasher. -/
theorem cshake_sponge {c rate : Nat} {suf : List Bool} {D : Byte} (h : SepByte suf D) (hc : 1600 - c = 8 * rate)
    (h0 : 0 < rate) (h8 : 8 ∣ rate) (hr : rate ≤ 200) {N S p : Bytes} (hp : rate ∣ p.length)
    (hi : CShake.new f24 rate N S = ⟨updateBlocks f24 zero (chunks rate p), updateBlocks f24 zero (chunks rate p), D⟩)
    (l : List Bytes) (sizes : List Nat) :
    ((xof f24 rate).reads ((xof f24 rate).reader
      ((cshake f24 rate N S).finish ((cshake f24 rate N S).updates (cshake f24 rate N S).new l))) sizes).1 =
      bytesOf (keccak c (bitsOf (p ++ l.flatten) ++ suf) (8 * sizes.sum)) := by
  rw [C01_digest_of_chunks _ (cshake_lawful perm24 h0 N S)]
  obtain ⟨h1, h2⟩ := cshake_digest perm24 h0 h8 hr h.2.2.2 hp hi l.flatten
  rw [XofCore.reads_eq (xof_lawful perm24 h0 hr) h1, read_eq perm24 h0 hr h1, h2, keccak, hc,
    sponge_bytes _ h0 hr h, ← spongeBytes_congr f24_eq, spongeBytes]

/-- Length of `left_encode(rate) ‖ encode_string(N) ‖ encode_string(S)`. -/
def prefixLength (rate : Nat) (N S : Bytes) : Nat :=
  (Spec.Keccak.leftEncode rate ++ (encodeString N ++ encodeString S)).length

theorem paddedPrefix_bytepad {rate : Nat} {N S : Bytes} (h0 : 0 < rate) (h : prefixLength rate N S % rate ≠ 0) :
    paddedPrefix rate N S = bytepad (encodeString N ++ encodeString S) rate := by
  have e : prefixBytes rate N S = Spec.Keccak.leftEncode rate ++ (encodeString N ++ encodeString S) := by
    simp [prefixBytes]
  have hlt := Nat.mod_lt (prefixLength rate N S) h0
  simp only [paddedPrefix, bytepad, e, prefixLength] at *
  rw [Nat.mod_eq_of_lt (a := rate - _)]
  omega

theorem cshake_any {c s rate : Nat} (hs : s = 128 ∧ c = 256 ∧ rate = 168 ∨ s = 256 ∧ c = 512 ∧ rate = 136) (N S : Bytes)
    (hN : 8 * N.length < 2 ^ 64) (hS : 8 * S.length < 2 ^ 64)
    (hne : N = [] ∧ S = [] ∨ prefixLength rate N S % rate ≠ 0) (l : List Bytes) (sizes : List Nat) :
    ((xof f24 rate).reads ((xof f24 rate).reader
      ((Sha3.cshake f24 rate N S).finish ((Sha3.cshake f24 rate N S).updates (Sha3.cshake f24 rate N S).new l))) sizes).1 =
      Spec.Keccak.cshake s l.flatten sizes.sum N S := by
  have h0 : 0 < rate := by omega
  have h8 : 8 ∣ rate := by omega
  have hr : rate ≤ 200 := by omega
  have hc : 1600 - c = 8 * rate := by omega
  have hw : 200 - s / 4 = rate := by omega
  have hcs : 2 * s = c := by omega
  unfold Spec.Keccak.cshake
  by_cases he : N = [] ∧ S = []
  · rw [if_pos he, he.1, he.2]
    rw [cshake_sponge (c := c) (suf := [true, true, true, true]) (D := 0x1f) (p := []) (by decide) hc h0 h8 hr ⟨0, rfl⟩
      (by rw [new_empty, chunks_nil]; rfl), Spec.Keccak.shake, hcs]
    rfl
  · rw [if_neg he]
    rcases hne with hne | hne
    · exact absurd hne he
    · rw [cshake_sponge (c := c) (suf := [false, false]) (D := 0x04) (p := paddedPrefix rate N S) (by decide) hc h0 h8 hr
        (paddedPrefix_dvd h0 N S) (new_state perm24 h0 (by omega) hN hS he), paddedPrefix_bytepad h0 hne, hw, hcs]

/-- C18, partial. `CShake128/256` equals SP 800-185 cSHAKE(X, L, N, S) for every N, S of fewer than 2^61 bytes for which
`left_encode(rate) ‖ encode_string(N) ‖ encode_string(S)` does not exactly fill a whole number of rate blocks (or both
are empty), every chunking and every read pattern.
Missing from C18: the exact-fit case, where the code absorbs an extra all-zero block — see `C18_violated`, and
`C18_cshake_actual` for what it computes instead. -/
theorem C18_cshake_partial (N S : Bytes) (hN : N.length < 2 ^ 61) (hS : S.length < 2 ^ 61) (l : List Bytes)
    (sizes : List Nat) :
    (N = [] ∧ S = [] ∨ prefixLength 168 N S % 168 ≠ 0 →
      ((xof f24 168).reads ((xof f24 168).reader ((cshake128 N S).finish ((cshake128 N S).updates (cshake128 N S).new l)))
        sizes).1 = Spec.Keccak.cshake 128 l.flatten sizes.sum N S) ∧
    (N = [] ∧ S = [] ∨ prefixLength 136 N S % 136 ≠ 0 →
      ((xof f24 136).reads ((xof f24 136).reader ((cshake256 N S).finish ((cshake256 N S).updates (cshake256 N S).new l)))
        sizes).1 = Spec.Keccak.cshake 256 l.flatten sizes.sum N S) :=
  ⟨fun h => cshake_any (Or.inl ⟨rfl, rfl, rfl⟩) N S (by omega) (by omega) h l sizes,
   fun h => cshake_any (Or.inr ⟨rfl, rfl, rfl⟩) N S (by omega) (by omega) h l sizes⟩

/-- What the code computes for every (N, S) that are not both empty: the prefix is always padded with at least one zero
byte, so an exactly fitting prefix gets a whole extra block of zeros. -/
theorem C18_cshake_actual (N S : Bytes) (hN : N.length < 2 ^ 61) (hS : S.length < 2 ^ 61) (hne : ¬ (N = [] ∧ S = []))
    (l : List Bytes) (sizes : List Nat) :
    ((xof f24 168).reads ((xof f24 168).reader ((cshake128 N S).finish ((cshake128 N S).updates (cshake128 N S).new l)))
        sizes).1 =
      bytesOf (keccak 256 (bitsOf ((Spec.Keccak.leftEncode 168 ++ encodeString N ++ encodeString S ++
        List.replicate (168 - prefixLength 168 N S % 168) 0) ++ l.flatten) ++ [false, false]) (8 * sizes.sum)) ∧
    ((xof f24 136).reads ((xof f24 136).reader ((cshake256 N S).finish ((cshake256 N S).updates (cshake256 N S).new l)))
        sizes).1 =
      bytesOf (keccak 512 (bitsOf ((Spec.Keccak.leftEncode 136 ++ encodeString N ++ encodeString S ++
        List.replicate (136 - prefixLength 136 N S % 136) 0) ++ l.flatten) ++ [false, false]) (8 * sizes.sum)) := by
  have e : ∀ rate, paddedPrefix rate N S = Spec.Keccak.leftEncode rate ++ encodeString N ++ encodeString S ++
      List.replicate (rate - prefixLength rate N S % rate) 0 := by
    intro rate; simp [paddedPrefix, prefixBytes, prefixLength]
  rw [← e, ← e]
  exact ⟨cshake_sponge (c := 256) (D := 0x04) (p := paddedPrefix 168 N S) (by decide) (by decide) (by decide) (by decide)
      (by decide) (paddedPrefix_dvd (by decide) N S)
      (new_state perm24 (by decide) (by omega) (by omega) (by omega) hne) l sizes,
    cshake_sponge (c := 512) (D := 0x04) (p := paddedPrefix 136 N S) (by decide) (by decide) (by decide) (by decide)
      (by decide) (paddedPrefix_dvd (by decide) N S)
      (new_state perm24 (by decide) (by omega) (by omega) (by omega) hne) l sizes⟩

set_option maxRecDepth 100000 in
/-- C18 fails: with an empty function name and a 161-byte (resp. 129-byte) customization string the prefix fills exactly
one block; the code then absorbs one more block of zeros and the output differs from SP 800-185. -/
theorem C18_violated :
    ((xof f24 168).read ((xof f24 168).reader ((cshake128 [] (List.replicate 161 0)).finish
      (cshake128 [] (List.replicate 161 0)).new)) 8).1 ≠ Spec.Keccak.cshake 128 [] 8 [] (List.replicate 161 0) ∧
    ((xof f24 136).read ((xof f24 136).reader ((cshake256 [] (List.replicate 129 0)).finish
      (cshake256 [] (List.replicate 129 0)).new)) 8).1 ≠ Spec.Keccak.cshake 256 [] 8 [] (List.replicate 129 0) := by
  have e : ∀ c rate P, 1600 - c = 8 * rate → 0 < rate → rate ≤ 200 →
      bytesOf (keccak c (bitsOf (P ++ []) ++ [false, false]) (8 * 8)) = spongeBytes f24 rate 0x04 P 8 := by
    intro c rate P h1 h2 h3
    rw [keccak, h1, List.append_nil, sponge_bytes _ h2 h3 (D := 0x04) (by decide), ← spongeBytes_congr f24_eq]
  unfold Spec.Keccak.cshake
  rw [if_neg (by decide), if_neg (by decide), e 256 168 _ (by decide) (by decide) (by decide),
    e 512 136 _ (by decide) (by decide) (by decide)]
  decide +kernel

/-- The partial theorem is not vacuous: `cSHAKE128("", "Email Signature")`'s prefix does not fit exactly. -/
example : prefixLength 168 [] [0x45, 0x6d, 0x61, 0x69, 0x6c, 0x20, 0x53, 0x69, 0x67, 0x6e, 0x61, 0x74, 0x75, 0x72, 0x65]
    % 168 ≠ 0 := by decide

set_option maxRecDepth 100000 in
/-- Concrete case: NIST cSHAKE sample 1 (data 00010203, S = "Email Signature"), first bytes c1 c3 69 25. -/
example : ((xof f24 168).read ((xof f24 168).reader (let c := cshake128 [] [0x45, 0x6d, 0x61, 0x69, 0x6c, 0x20, 0x53, 0x69,
    0x67, 0x6e, 0x61, 0x74, 0x75, 0x72, 0x65]; c.finish (c.update c.new [0, 1, 2, 3]))) 4).1 =
    [0xc1, 0xc3, 0x69, 0x25] := by decide +kernel

/-! ### C19 -/

theorem cshake_empty_digest {f : Lanes → Lanes} (hf : Perm f) {rate : Nat} (h0 : 0 < rate) (m : Bytes) :
    (Sha3.cshake f rate [] []).digest m = (Sha3.shake f rate 0x1f).digest m := by
  obtain ⟨b, h1, h2, -, h4⟩ := Core.digest_eager (cshake_lawful hf h0 [] []) rfl m
  obtain ⟨b', k1, k2, -, k4⟩ := Core.digest_eager (shake_lawful hf h0 0x1f) rfl m
  rw [h4, k4]
  simp only [Sha3.cshake, Sha3.shake, new_empty] at *
  rw [lastBlock_congr h1 k1 (by rw [h2, k2])]

/-- C19. `CShake` with empty N and S produces the same reader as `Shake`, hence the same bytes for every chunking and
every read pattern. -/
theorem C19_empty (l l' : List Bytes) (h : l.flatten = l'.flatten) :
    (cshake128 [] []).finish ((cshake128 [] []).updates (cshake128 [] []).new l) =
      shake128.finish (shake128.updates shake128.new l') ∧
    (cshake256 [] []).finish ((cshake256 [] []).updates (cshake256 [] []).new l) =
      shake256.finish (shake256.updates shake256.new l') := by
  unfold cshake128 cshake256 shake128 shake256
  rw [C01_digest_of_chunks _ (cshake_lawful perm24 (by decide) [] []),
    C01_digest_of_chunks _ (cshake_lawful perm24 (by decide) [] []),
    C01_digest_of_chunks _ (shake_lawful perm24 (by decide) 0x1f),
    C01_digest_of_chunks _ (shake_lawful perm24 (by decide) 0x1f), h]
  exact ⟨cshake_empty_digest perm24 (by decide) _, cshake_empty_digest perm24 (by decide) _⟩

/-- C19. Any other (N, S) uses the cSHAKE separation byte 0x04 (domain bits 00), in the fresh state, after any updates
and after reset. -/
theorem C19_padding (N S : Bytes) (h : ¬ (N = [] ∧ S = [])) (blks : List Bytes) :
    ((cshake128 N S).updateBlocks (cshake128 N S).init blks).padding = 0x04 ∧
    ((cshake256 N S).updateBlocks (cshake256 N S).init blks).padding = 0x04 ∧
    ((cshake128 N S).reset ((cshake128 N S).updateBlocks (cshake128 N S).init blks)).padding = 0x04 ∧
    ((cshake256 N S).reset ((cshake256 N S).updateBlocks (cshake256 N S).init blks)).padding = 0x04 := by
  obtain ⟨p, -, h1, -⟩ := new_eq perm24 (rate := 168) (by decide) h
  obtain ⟨q, -, k1, -⟩ := new_eq perm24 (rate := 136) (by decide) h
  simp [cshake128, cshake256, Sha3.cshake, h1, k1]

example : ¬ (([] : Bytes) = [] ∧ ([0x41] : Bytes) = []) := by decide

/-! ### C21 -/

/-- C21. The blocks absorbed at construction determine (N, S), even when followed by arbitrary message blocks: distinct
customizations are domain separated. -/
theorem C21_prefix_injective (rate : Nat) (hrate : rate = 168 ∨ rate = 136) :
    ∃ B : Bytes → Bytes → List Bytes,
      (∀ f, Perm f → ∀ N S : Bytes, N.length < 2 ^ 61 → S.length < 2 ^ 61 → ¬ (N = [] ∧ S = []) →
        (CShake.new f rate N S).state = updateBlocks f zero (B N S)) ∧
      (∀ N S, ∀ b ∈ B N S, b.length = rate) ∧
      ∀ (N S N' S' : Bytes) (x x' : List Bytes), N.length < 2 ^ 61 → S.length < 2 ^ 61 → N'.length < 2 ^ 61 →
        S'.length < 2 ^ 61 → B N S ++ x = B N' S' ++ x' → N = N' ∧ S = S' := by
  have h0 : 0 < rate := by omega
  refine ⟨fun N S => chunks rate (paddedPrefix rate N S), ?_, ?_, ?_⟩
  · intro f hf N S hN hS hne
    rw [new_state hf h0 (by omega) (by omega) (by omega) hne]
  · intro N S b hb
    exact length_of_mem_chunks hb
  · intro N S N' S' x x' hN hS hN' hS' h
    have h := congrArg List.flatten h
    rw [List.flatten_append, List.flatten_append, chunks_flatten (paddedPrefix_dvd h0 N S),
      chunks_flatten (paddedPrefix_dvd h0 N' S')] at h
    simp only [paddedPrefix, prefixBytes, encodeString, List.append_assoc] at h
    have h := (leftEncode_append_inj (by omega) (by omega) h).2
    obtain ⟨hl, h⟩ := leftEncode_append_inj (by omega) (by omega) h
    obtain ⟨hNN, h⟩ := List.append_inj h (by omega)
    obtain ⟨hl, h⟩ := leftEncode_append_inj (by omega) (by omega) h
    exact ⟨hNN, (List.append_inj h (by omega)).1⟩

end Hashes
