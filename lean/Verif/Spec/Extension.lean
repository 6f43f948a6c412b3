import Verif.Spec.Padding
/-
Length extension: what an outsider who knows the digest of a message and its length, but not the message, can write down.
-/
namespace Hashes.Spec

/-- Reverse the bytes within each group of `w`. -/
def swapWords (w : Nat) (d : Bytes) : Bytes := (chunks w d).flatMap List.reverse

/-- Number of `bs`-byte blocks of a message of `len` bytes after padding with one delimiter byte and a `k`-byte length. -/
def paddedBlocks (bs k len : Nat) : Nat := (len + k) / bs + 1

/-- State image with the chaining value in digest byte order, an 8-byte block counter and an empty 64-byte buffer. -/
def imageLE (d : Bytes) (n : Nat) : Bytes := d ++ leBytes 8 n ++ List.replicate 65 0

/-- The same for digests written most significant byte first, 32-bit words. -/
def imageBE32 (d : Bytes) (n : Nat) : Bytes := swapWords 4 d ++ leBytes 8 n ++ List.replicate 65 0

/-- SHA-256: the output size follows the counter. -/
def imageSha256 (d : Bytes) (n : Nat) : Bytes := swapWords 4 d ++ leBytes 8 n ++ [32] ++ List.replicate 65 0

/-- SHA-512: 64-bit words, 128-bit counter, 128-byte buffer. -/
def imageSha512 (d : Bytes) (n : Nat) : Bytes := swapWords 8 d ++ leBytes 16 n ++ [64] ++ List.replicate 129 0

/-- Whirlpool: a 256-bit count of bits, most significant limb first, each limb little-endian. -/
def imageWhirlpool (d : Bytes) (n : Nat) : Bytes := d ++ swapWords 8 (beBytes 32 (512 * n)) ++ List.replicate 65 0

end Hashes.Spec
