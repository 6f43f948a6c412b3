import Verif.Proof.Reals
import Verif.Model.Sha1
import Verif.Model.Sha256
import Verif.Model.Sha512
import Verif.Model.Blake2
import Verif.Model.Md2
import Verif.Model.Md4
import Verif.Model.Md5
import Verif.Spec.Ripemd
import Verif.Spec.Jh
/- C56: the constants are the real-number expressions from which the standards take them. -/
namespace Hashes
open Spec.Reals

/-- C56. `K32`: first 32 bits of the fractional parts of the cube roots of the first 64 primes. -/
theorem C56_sha256_k : Sha256.K32.map BitVec.toNat = (List.range 64).map fun t => frac 32 (root 3 (prime t)) := by
  have h := Reals.table_root 3 32 0 (Sha256.K32.map BitVec.toNat) (by decide) (by decide) (by decide +kernel)
  rw [h]; simp only [Nat.zero_add]; rfl

/-- C56. `K64`: first 64 bits of the fractional parts of the cube roots of the first 80 primes. -/
theorem C56_sha512_k : Sha512.K64.map BitVec.toNat = (List.range 80).map fun t => frac 64 (root 3 (prime t)) := by
  have h := Reals.table_root 3 64 0 (Sha512.K64.map BitVec.toNat) (by decide) (by decide) (by decide +kernel)
  rw [h]; simp only [Nat.zero_add]; rfl

/-- C56. Initial values of SHA-256 and SHA-512 and the `IV` of BLAKE2s and BLAKE2b: first 32 (64) bits of the fractional parts of the
square roots of the first eight primes. -/
theorem C56_iv :
    Sha256.H256_256.toList.map BitVec.toNat = (List.range 8).map (fun t => frac 32 (root 2 (prime t))) ∧
    Sha512.H512_512.toList.map BitVec.toNat = (List.range 8).map (fun t => frac 64 (root 2 (prime t))) ∧
    Blake2.cfgS.IV.toList.map BitVec.toNat = (List.range 8).map (fun t => frac 32 (root 2 (prime t))) ∧
    Blake2.cfgB.IV.toList.map BitVec.toNat = (List.range 8).map (fun t => frac 64 (root 2 (prime t))) := by
  have h1 := Reals.table_root 2 32 0 (Sha256.H256_256.toList.map BitVec.toNat) (by decide) (by decide) (by decide +kernel)
  have h2 := Reals.table_root 2 64 0 (Sha512.H512_512.toList.map BitVec.toNat) (by decide) (by decide) (by decide +kernel)
  simp only [Nat.zero_add] at h1 h2
  exact ⟨h1, h2, h1, h2⟩

/-- C56. Initial values of SHA-384 (64 bits of the roots of the ninth to sixteenth primes) and SHA-224 (the second 32 bits of them). -/
theorem C56_iv_short :
    Sha512.H512_384.toList.map BitVec.toNat = (List.range 8).map (fun t => frac 64 (root 2 (prime (8 + t)))) ∧
    Sha256.H256_224.toList.map BitVec.toNat = (List.range 8).map (fun t => frac 64 (root 2 (prime (8 + t))) % 2 ^ 32) := by
  have h := Reals.table_root 2 64 8 (Sha512.H512_384.toList.map BitVec.toNat) (by decide) (by decide) (by decide +kernel)
  refine ⟨h, ?_⟩
  have e : Sha256.H256_224.toList.map BitVec.toNat = (Sha512.H512_384.toList.map BitVec.toNat).map (· % 2 ^ 32) := by decide +kernel
  rw [e, h, List.map_map]; rfl

/-- C56. Round constants of SHA-1: `2^30` times the square roots of 2, 3, 5 and 10. -/
theorem C56_sha1_k : (List.range 4).map (fun i => (Sha1.K i).toNat) = [2, 3, 5, 10].map fun p : ℕ => ⌊((2 ^ 30 : ℕ) : ℝ) * root 2 p⌋₊ := by
  simp only [List.map_cons, List.map_nil]
  rw [Reals.floor_root 2 (2 ^ 30) 2 0x5A827999 (by decide) (by decide) (by decide),
    Reals.floor_root 2 (2 ^ 30) 3 0x6ED9EBA1 (by decide) (by decide) (by decide),
    Reals.floor_root 2 (2 ^ 30) 5 0x8F1BBCDC (by decide) (by decide) (by decide),
    Reals.floor_root 2 (2 ^ 30) 10 0xCA62C1D6 (by decide) (by decide) (by decide)]
  decide

/-- C56. Round constants of MD4: `2^30` times the square roots of 2 and 3. -/
theorem C56_md4_k : [Md4.K1.toNat, Md4.K2.toNat] = [2, 3].map fun p : ℕ => ⌊((2 ^ 30 : ℕ) : ℝ) * root 2 p⌋₊ := by
  simp only [List.map_cons, List.map_nil]
  rw [Reals.floor_root 2 (2 ^ 30) 2 0x5A827999 (by decide) (by decide) (by decide),
    Reals.floor_root 2 (2 ^ 30) 3 0x6ED9EBA1 (by decide) (by decide) (by decide)]
  decide

/-- C56. Round constants of RIPEMD: 0 and `2^30` times the square roots of 2, 3, 5, 7 in the left line, cube roots in the right line (one
fewer for the 64-step functions). The constants are those of the specification, which C13 proves the code equal to. -/
theorem C56_ripemd_k :
    (List.range 5).map (fun r => (Spec.Ripemd.K r).toNat) = 0 :: [2, 3, 5, 7].map (fun p : ℕ => ⌊((2 ^ 30 : ℕ) : ℝ) * root 2 p⌋₊) ∧
    (List.range 5).map (fun r => (Spec.Ripemd.K' r).toNat) = [2, 3, 5, 7].map (fun p : ℕ => ⌊((2 ^ 30 : ℕ) : ℝ) * root 3 p⌋₊) ++ [0] ∧
    (List.range 4).map (fun r => (Spec.Ripemd.K4' r).toNat) = [2, 3, 5].map (fun p : ℕ => ⌊((2 ^ 30 : ℕ) : ℝ) * root 3 p⌋₊) ++ [0] := by
  simp only [List.map_cons, List.map_nil]
  rw [Reals.floor_root 2 (2 ^ 30) 2 0x5a827999 (by decide) (by decide) (by decide),
    Reals.floor_root 2 (2 ^ 30) 3 0x6ed9eba1 (by decide) (by decide) (by decide),
    Reals.floor_root 2 (2 ^ 30) 5 0x8f1bbcdc (by decide) (by decide) (by decide),
    Reals.floor_root 2 (2 ^ 30) 7 0xa953fd4e (by decide) (by decide) (by decide),
    Reals.floor_root 3 (2 ^ 30) 2 0x50a28be6 (by decide) (by decide) (by decide),
    Reals.floor_root 3 (2 ^ 30) 3 0x5c4dd124 (by decide) (by decide) (by decide),
    Reals.floor_root 3 (2 ^ 30) 5 0x6d703ef3 (by decide) (by decide) (by decide),
    Reals.floor_root 3 (2 ^ 30) 7 0x7a6d76e9 (by decide) (by decide) (by decide)]
  decide

/-- C56. First round constant of JH (from which the others follow, C38): 256 bits of the fractional part of the square root of 2. -/
theorem C56_jh_c0 : Spec.Jh.C0 = (List.range 64).map fun i => BitVec.ofNat 4 (frac 256 (root 2 2) / 16 ^ (63 - i)) := by
  have h := Reals.frac_root (k := 2) (w := 256) (p := 2)
    (v := 0x6a09e667f3bcc908b2fb1366ea957d3e3adec17512775099da2f590b0667322a)
    (N := 0x16a09e667f3bcc908b2fb1366ea957d3e3adec17512775099da2f590b0667322a) (by decide) (by decide +kernel)
  rw [show root 2 2 = root 2 ((2 : ℕ) : ℝ) by norm_num, h]; rfl

theorem Reals.md5_check : ((List.range (Md5.RC.map BitVec.toNat).length).all fun i =>
    Reals.sinOk 120 (i + 1) ((Md5.RC.map BitVec.toNat).getD i 0)) = true := by decide +kernel

/-- C56. Round constants of MD5: the integer part of `2^32 · |sin i|` for `i = 1 … 64` (radians). -/
theorem C56_md5_rc : Md5.RC.map BitVec.toNat = (List.range 64).map fun i => ⌊2 ^ 32 * |Real.sin ((i + 1 : ℕ) : ℝ)|⌋₊ := by
  have h := Reals.table_sin 120 (Md5.RC.map BitVec.toNat) Reals.md5_check
  have hl : (Md5.RC.map BitVec.toNat).length = 64 := by decide +kernel
  rw [hl] at h
  exact h

/-- C56. The table of MD2 is the shuffle of 0 … 255 driven by the first 722 digits of π, all of which are used. -/
theorem C56_md2_s : shuffle ((List.range 722).map piDigit) = (Md2.S.map BitVec.toNat, []) := by
  have e : (List.range 722).map piDigit =
      (List.range 722).map fun i => (3 * 10 ^ 1064 + Pi.rows0.headD 0) / 10 ^ (1064 - i) % 10 :=
    List.map_congr_left fun i hi => Reals.piDigit_eq i (by have := List.mem_range.1 hi; omega)
  rw [e]
  decide +kernel

/-- Concrete case: the fractional part of √2 begins with the bits of 0x6a09e667. -/
example : frac 32 (root 2 2) = 0x6a09e667 := by
  rw [show root 2 2 = root 2 ((2 : ℕ) : ℝ) by norm_num]
  exact Reals.frac_root (N := 0x16a09e667) (by decide) (by decide +kernel)
/-- Concrete case: the eightieth prime is 409. -/
example : prime 79 = 409 := by rw [← Reals.prime_eq 79 (by decide)]; decide +kernel
/-- Concrete case: a wrong last bit is noticed; the second constant of MD5 is not 0xe8c7b757. -/
example : Reals.sinOk 120 2 0xe8c7b756 = true ∧ Reals.sinOk 120 2 0xe8c7b757 = false := by decide +kernel
/-- Concrete case: drawing below 11 from the digits 9 9 0 7: 99 is the first number not below 9·11, so it is discarded and 7 drawn. -/
example : draw 11 4 [9, 9, 0, 7, 5] = (7, [5]) := by decide

end Hashes
