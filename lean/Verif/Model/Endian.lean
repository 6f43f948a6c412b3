import Verif.Base.Bytes
/- Byte order of the target: integers in memory, and the conversions of the Rust standard library (external). -/
namespace Hashes

/-- `target_endian`. -/
inductive Endian
  | little | big
  deriving DecidableEq, Repr

/-- The bytes of an `n`-byte integer in memory. -/
def neBytes (e : Endian) (n x : Nat) : Bytes :=
  match e with
  | .little => leBytes n x
  | .big => beBytes n x

/-- The integer whose bytes in memory are `b` (`from_ne_bytes`). -/
def ofNe (e : Endian) (b : Bytes) : Nat :=
  match e with
  | .little => ofLE b
  | .big => ofBE b

variable {w : Nat}

/-- `swap_bytes` of the standard library. -/
def swapBytes (x : BitVec w) : BitVec w := BitVec.ofNat w (ofBE (leBytes (w / 8) x.toNat))

/-- `uN::from_le` and `uN::to_le` of the standard library. -/
def wordLe (e : Endian) (x : BitVec w) : BitVec w :=
  match e with
  | .little => x
  | .big => swapBytes x

end Hashes
