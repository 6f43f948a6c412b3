import Verif.Model.Oid
import Verif.Base.Bytes
/- C47: object identifiers. -/
namespace Hashes
open Oid Oid.Alg

/-- The registered identifiers, as arcs below named roots: RFC 8017 and RFC 3279 (`digestAlgorithm`), NIST CSOR `hashAlgs`
(numbered in the order SHA-256, 384, 512, 224, 512/224, 512/256, SHA3-224, 256, 384, 512, SHAKE128, SHAKE256), TeleTrusT, OIW,
RFC 4357, RFC 6986 (TC 26), STB 34.101.31, the Ukrainian national arc. -/
def Spec.registered (a : Alg) : List Nat :=
  let csor : List Nat := [2, 16, 840, 1, 101, 3, 4, 2]
  let rsadsi : List Nat := [1, 2, 840, 113549, 2]
  let teletrust : List Nat := [1, 3, 36, 3, 2]
  let cryptopro : List Nat := [1, 2, 643, 2, 2]
  let tc26 : List Nat := [1, 2, 643, 7, 1, 1, 2]
  match a with
  | md2 => rsadsi ++ [2]
  | md4 => rsadsi ++ [4]
  | md5 => rsadsi ++ [5]
  | sha1 => [1, 3, 14, 3, 2, 26]
  | ripemd160 => teletrust ++ [1]
  | ripemd128 => teletrust ++ [2]
  | ripemd256 => teletrust ++ [3]
  | gost94CryptoPro => cryptopro ++ [9]
  | paramTest => cryptopro ++ [30, 0]
  | paramCryptoPro => cryptopro ++ [30, 1]
  | gost94UA => [1, 2, 804, 2, 1, 1, 1, 1, 2, 1]
  | streebog256 => tc26 ++ [2]
  | streebog512 => tc26 ++ [3]
  | belt => [1, 2, 112, 0, 2, 0, 34, 101, 31, 81]
  | a => csor ++ [[sha256, sha384, sha512, sha224, sha512_224, sha512_256, sha3_224, sha3_256, sha3_384, sha3_512, shake128,
      shake256].findIdx (· == a) + 1]

theorem Oid.mem_all (a : Alg) : a ∈ Oid.all := by cases a <;> decide

/-- C47. The claim is false: SHAKE128 and SHAKE256 carry the same identifier (sha3/src/lib.rs:106 and :116). -/
theorem C47_violated : ∃ a b : Alg, a ≠ b ∧ oid a = oid b := ⟨shake128, shake256, by decide⟩

/-- C47, what holds: the identifiers are pairwise distinct except for that pair. Full statement (false):
`∀ a b, oid a = oid b → a = b`. -/
theorem C47_distinct_partial (a b : Alg) (h : oid a = oid b) :
    a = b ∨ (a = shake128 ∧ b = shake256) ∨ (a = shake256 ∧ b = shake128) := by
  have : ∀ a ∈ Oid.all, ∀ b ∈ Oid.all, oid a = oid b →
      a = b ∨ (a = shake128 ∧ b = shake256) ∨ (a = shake256 ∧ b = shake128) := by decide +kernel
  exact this a (Oid.mem_all a) b (Oid.mem_all b) h

/-- C47. Every identifier except SHAKE256's is the registered one; SHAKE256's would be `hashAlgs 12`. -/
theorem C47_registered_partial (a : Alg) : oid a = Spec.registered a ↔ a ≠ shake256 := by
  have : ∀ a ∈ Oid.all, (oid a = Spec.registered a ↔ a ≠ shake256) := by decide +kernel
  exact this a (Oid.mem_all a)

/-- C47. With SHAKE256's identifier corrected the claim would hold: the registered identifiers are pairwise distinct. -/
theorem C47_registered_distinct (a b : Alg) (h : Spec.registered a = Spec.registered b) : a = b := by
  have : ∀ a ∈ Oid.all, ∀ b ∈ Oid.all, Spec.registered a = Spec.registered b → a = b := by decide +kernel
  exact this a (Oid.mem_all a) b (Oid.mem_all b) h

/-- Concrete cases. -/
example : Spec.registered shake256 = [2, 16, 840, 1, 101, 3, 4, 2, 12] ∧ oid shake256 = [2, 16, 840, 1, 101, 3, 4, 2, 11] ∧
    Spec.registered sha512_256 = oid sha512_256 := by decide

end Hashes
