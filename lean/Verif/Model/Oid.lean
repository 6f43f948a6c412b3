/- The object identifiers declared in the repository (feature `oid`): every `AssociatedOid` implementation and
`impl_oid_carrier!` found by `grep -rn "AssociatedOid\|impl_oid_carrier" /repo/*/src`. -/
namespace Hashes.Oid

/-- The algorithms (and GOST parameter sets) carrying an identifier. -/
inductive Alg
  | belt | gost94CryptoPro | gost94UA | paramCryptoPro | paramTest | md2 | md4 | md5 | ripemd128 | ripemd160 | ripemd256
  | sha1 | sha224 | sha256 | sha384 | sha512 | sha512_224 | sha512_256 | sha3_224 | sha3_256 | sha3_384 | sha3_512
  | shake128 | shake256 | streebog256 | streebog512
deriving DecidableEq, Repr

open Alg

def all : List Alg := [belt, gost94CryptoPro, gost94UA, paramCryptoPro, paramTest, md2, md4, md5, ripemd128, ripemd160, ripemd256,
  sha1, sha224, sha256, sha384, sha512, sha512_224, sha512_256, sha3_224, sha3_256, sha3_384, sha3_512, shake128, shake256,
  streebog256, streebog512]

/-- The identifier claimed in the source. `sha1_checked::Sha1` (sha1-checked/src/lib.rs:243-245) reuses `Sha1Core::OID`: it is
the same algorithm. -/
def oid : Alg → List Nat
  /- belt-hash/src/lib.rs:139 -/
  | belt => [1, 2, 112, 0, 2, 0, 34, 101, 31, 81]
  /- gost94/src/lib.rs:29, :34; params.rs:39, :83 -/
  | gost94CryptoPro => [1, 2, 643, 2, 2, 9]
  | gost94UA => [1, 2, 804, 2, 1, 1, 1, 1, 2, 1]
  | paramCryptoPro => [1, 2, 643, 2, 2, 30, 1]
  | paramTest => [1, 2, 643, 2, 2, 30, 0]
  /- md2/src/lib.rs:140, md4/src/lib.rs:123, md5/src/lib.rs:115 -/
  | md2 => [1, 2, 840, 113549, 2, 2]
  | md4 => [1, 2, 840, 113549, 2, 4]
  | md5 => [1, 2, 840, 113549, 2, 5]
  /- ripemd/src/lib.rs:180, :188, :193 -/
  | ripemd128 => [1, 3, 36, 3, 2, 2]
  | ripemd160 => [1, 3, 36, 3, 2, 1]
  | ripemd256 => [1, 3, 36, 3, 2, 3]
  /- sha1/src/lib.rs:118 -/
  | sha1 => [1, 3, 14, 3, 2, 26]
  /- sha2/src/lib.rs:42-47, :50-60 -/
  | sha256 => [2, 16, 840, 1, 101, 3, 4, 2, 1]
  | sha384 => [2, 16, 840, 1, 101, 3, 4, 2, 2]
  | sha512 => [2, 16, 840, 1, 101, 3, 4, 2, 3]
  | sha224 => [2, 16, 840, 1, 101, 3, 4, 2, 4]
  | sha512_224 => [2, 16, 840, 1, 101, 3, 4, 2, 5]
  | sha512_256 => [2, 16, 840, 1, 101, 3, 4, 2, 6]
  /- sha3/src/lib.rs:68, :77, :86, :95, :106, :116 -/
  | sha3_224 => [2, 16, 840, 1, 101, 3, 4, 2, 7]
  | sha3_256 => [2, 16, 840, 1, 101, 3, 4, 2, 8]
  | sha3_384 => [2, 16, 840, 1, 101, 3, 4, 2, 9]
  | sha3_512 => [2, 16, 840, 1, 101, 3, 4, 2, 10]
  | shake128 => [2, 16, 840, 1, 101, 3, 4, 2, 11]
  | shake256 => [2, 16, 840, 1, 101, 3, 4, 2, 11]
  /- streebog/src/lib.rs:28-29, :32-34 -/
  | streebog256 => [1, 2, 643, 7, 1, 1, 2, 2]
  | streebog512 => [1, 2, 643, 7, 1, 1, 2, 3]

end Hashes.Oid
