import Verif.Props.K12
import Verif.Proof.Width
/- C59: the width of `usize`. -/
namespace Hashes
open Spec Spec.Keccak Sha3

/-- What a user reads from a cSHAKE hasher built around a constructed core. -/
def cshakeOut (rate : Nat) (init : CShake) (l : List Bytes) (sizes : List Nat) : Bytes :=
  ((xof f24 rate).reads ((xof f24 rate).reader
    ((cshakeOn f24 rate init).finish ((cshakeOn f24 rate init).updates (cshakeOn f24 rate init).new l))) sizes).1

/-- What a user reads from a KangarooTwelve hasher on a target with `p`-bit `usize`. -/
def k12Out (p : Nat) (cust : Bytes) (l : List Bytes) (sizes : List Nat) : Bytes :=
  (K12.xof.reads (K12.xof.reader ((K12.coreOn p cust).finish ((K12.coreOn p cust).updates (K12.coreOn p cust).new l)))
    sizes).1

/-- C59, partial (cSHAKE). On a target whose `usize` has `p ≤ 64` bits the hash is that of SP 800-185 for strings of fewer
than `2 ^ (p - 3)` bytes (up to the exact-fit case of C18), with and without overflow checks.
Missing: longer strings, which `&[u8]` allows up to `2 ^ (p - 1) - 1` bytes; see `C59_cshake_violated`. -/
theorem C59_cshake_partial (checked : Bool) (p : Nat) (hp : p ≤ 64) (N S : Bytes) (hN : 8 * N.length < 2 ^ p)
    (hS : 8 * S.length < 2 ^ p) (l : List Bytes) (sizes : List Nat) :
    (∃ i, CShake.newOn checked p f24 168 N S = some i ∧ (N = [] ∧ S = [] ∨ prefixLength 168 N S % 168 ≠ 0 →
      cshakeOut 168 i l sizes = Spec.Keccak.cshake 128 l.flatten sizes.sum N S)) ∧
    (∃ i, CShake.newOn checked p f24 136 N S = some i ∧ (N = [] ∧ S = [] ∨ prefixLength 136 N S % 136 ≠ 0 →
      cshakeOut 136 i l sizes = Spec.Keccak.cshake 256 l.flatten sizes.sum N S)) := by
  have h := Nat.pow_le_pow_right (show 0 < 2 by decide) hp
  have c := C18_cshake_partial N S (by omega) (by omega) l sizes
  exact ⟨⟨_, newOn_fits f24 168 checked hN hS, c.1⟩, ⟨_, newOn_fits f24 136 checked hN hS, c.2⟩⟩

/-- C59 (cSHAKE, overflow checks on). The constructor panics exactly when a bit length does not fit in `usize`. -/
theorem C59_cshake_panic (p rate : Nat) (N S : Bytes) :
    CShake.newOn true p f24 rate N S = none ↔ 2 ^ p ≤ 8 * N.length ∨ 2 ^ p ≤ 8 * S.length := newOn_none

/-- C59 fails for cSHAKE without overflow checks: for every width `p ≥ 4` of `usize` (16, 32 and 64 exist) there are
two different pairs (N, S), of slices no longer than Rust allows, under which all messages have the same output: the bit
length `2 ^ p` wraps to 0, so domain separation (C21) is lost. -/
theorem C59_cshake_violated (p : Nat) (hp : 4 ≤ p) (rate : Nat) (hr : rate = 168 ∨ rate = 136) :
    ∃ N S N' S' : Bytes, (N, S) ≠ (N', S') ∧ N.length < 2 ^ (p - 1) ∧ S.length < 2 ^ (p - 1) ∧ N'.length < 2 ^ (p - 1) ∧
      S'.length < 2 ^ (p - 1) ∧ ∃ i i', CShake.newOn false p f24 rate N S = some i ∧
        CShake.newOn false p f24 rate N' S' = some i' ∧
        ∀ l sizes, cshakeOut rate i l sizes = cshakeOut rate i' l sizes := by
  obtain ⟨q, rfl⟩ : ∃ q, p = q + 3 := ⟨p - 3, by omega⟩
  have hq : 2 ≤ 2 ^ q := by
    have := Nat.pow_le_pow_right (show 0 < 2 by decide) (show 1 ≤ q by omega); simpa using this
  have hlt : 2 ^ q < 2 ^ (q + 3 - 1) := Nat.pow_lt_pow_right (by decide) (by omega)
  have hl1 : ∀ z : Bytes, z.length + 2 = 2 ^ q → ([1, 0] ++ z).length < 2 ^ (q + 3 - 1) ∧
      (z ++ [1, 0]).length < 2 ^ (q + 3 - 1) := fun z hz => by
    rw [List.length_append, List.length_append, show ([1, 0] : Bytes).length = 2 from rfl]; omega
  have hz : (List.replicate (2 ^ q - 2) (0 : Byte)).length + 2 = 2 ^ q := by simp; omega
  have hc := newOn_collision perm24 (rate := rate) (by omega) _ hz
  generalize List.replicate (2 ^ q - 2) (0 : Byte) = z at *
  have hsome : ∃ i, CShake.newOn false (q + 3) f24 rate ([1, 0] ++ z) [] = some i :=
    ⟨_, newOn_eq perm24 (by omega) (by simp) (usizeMul_wrap _ _ _) (usizeMul_wrap _ _ _) _ rfl⟩
  obtain ⟨i, hi⟩ := hsome
  exact ⟨[1, 0] ++ z, [], [], z ++ [1, 0], by simp, (hl1 z hz).1, Nat.two_pow_pos _, Nat.two_pow_pos _,
    (hl1 z hz).2, i, i, hi,
    hc ▸ hi, fun _ _ => rfl⟩

/-- C59, partial (KangarooTwelve). On a target with `p`-bit `usize` the output is KT128(M, C, L) as long as message,
customization and its encoded length have at most `2 ^ p` chunks of 8192 bytes.
Missing: longer messages; see `C59_k12_violated`. -/
theorem C59_k12_partial (p : Nat) (cust : Bytes) (l : List Bytes) (sizes : List Nat)
    (h : (l.flatten ++ cust ++ Spec.K12.lengthEncode cust.length).length ≤ 8192 * 2 ^ p) :
    k12Out p cust l sizes = Spec.K12.kt128 l.flatten cust sizes.sum := by
  have L := K12.lawfulOn p cust
  have r := (Core.Rep.new L).updates L l
  rw [List.nil_append] at r
  obtain ⟨s, i, e⟩ := K12.finalizeOn_inv r h
  have hne : l.flatten ++ cust ++ Spec.K12.lengthEncode cust.length ≠ [] := by simp [Spec.K12.lengthEncode]
  obtain ⟨d, X, d1, d2, e2, hX⟩ := K12.tail_eq i hne
  have t := K12.tread ⟨d1, d2⟩ X sizes.sum
  rw [k12Out, e, e2, K12.xof_reads t.1, t.2, hX]
  rfl

/-- C59 fails for KangarooTwelve without overflow checks: after exactly `2 ^ p` chunks (32 TiB with 32-bit `usize`) the
counter is back at 0 and everything hashed so far is forgotten: the output is that of the remaining bytes alone. -/
theorem C59_k12_violated (p : Nat) (cust : Bytes) (l : List Bytes) (A T : Bytes) (sizes : List Nat)
    (hl : l.flatten = A ++ T) (hA : A.length = 8192 * 2 ^ p)
    (hT : (T ++ cust ++ Spec.K12.lengthEncode cust.length).length ≤ 8192) :
    k12Out p cust l sizes = Spec.K12.kt128 T cust sizes.sum := by
  have L := K12.lawfulOn p cust
  have r := (Core.Rep.new L).updates L l
  rw [List.nil_append, hl] at r
  have t := K12.tread (d := 0x07) (by decide) (T ++ cust ++ Spec.K12.lengthEncode cust.length) sizes.sum
  rw [k12Out, K12.finalizeOn_wrap r hA hT, K12.xof_reads t.1, t.2, Spec.K12.kt128, if_pos hT]

/-- So all messages of that length collide with each other and with the empty message, on every target, for every output length. -/
theorem C59_k12_collision (p : Nat) (M M' : Bytes) (hM : M.length = 8192 * 2 ^ p) (hM' : M'.length = 8192 * 2 ^ p) (sizes : List Nat) :
    k12Out p [] [M] sizes = k12Out p [] [M'] sizes ∧ k12Out p [] [M] sizes = k12Out p [] [] sizes := by
  have hT : (([] : Bytes) ++ [] ++ Spec.K12.lengthEncode ([] : Bytes).length).length ≤ 8192 := by decide
  rw [C59_k12_violated p [] [M] M [] sizes (by simp) hM hT, C59_k12_violated p [] [M'] M' [] sizes (by simp) hM' hT,
    C59_k12_partial p [] [] sizes (Nat.le_trans hT (Nat.le_mul_of_pos_right _ (Nat.two_pow_pos p)))]
  exact ⟨rfl, rfl⟩

set_option maxRecDepth 100000 in
/-- Concrete cases: with a (hypothetical) 4-bit `usize`, customization `01 00` under the name `` equals customization
`` under the name `01 00`; with 64 bits they differ. -/
example : CShake.newOn false 4 f24 168 [1, 0] [] = CShake.newOn false 4 f24 168 [] [1, 0] ∧
    CShake.newOn false 64 f24 168 [1, 0] [] ≠ CShake.newOn false 64 f24 168 [] [1, 0] ∧
    CShake.newOn true 4 f24 168 [1, 0] [] = none := by decide +kernel

set_option maxRecDepth 100000 in
/-- … and a one-byte message on a 32-bit target. -/
example : k12Out 32 [] [[0x61]] [4] = Spec.K12.kt128 [0x61] [] 4 := by decide +kernel

end Hashes
