import Verif.Model.CoreWrapper
/-
Length bookkeeping of the hashers with arithmetic overflow checks on (the profile in which `+`, `*` and `+=` panic on
overflow; in the release profile they wrap, as in the other model files).  Only the counters are modelled here; a
computation that would panic is `none`.  The buffer and chunking are those of Model/BlockBuffer.lean.
-/
namespace Hashes.Count

/-- `a + b` on a `w`-bit unsigned integer with overflow check. -/
def add (w a b : Nat) : Option Nat := if a + b < 2 ^ w then some (a + b) else none
/-- `a * b` on a `w`-bit unsigned integer with overflow check. -/
def mul (w a b : Nat) : Option Nat := if a * b < 2 ^ w then some (a * b) else none
/-- `a.wrapping_add(b)`, `Wrapping` addition. -/
def wadd (w a b : Nat) : Option Nat := some ((a + b) % 2 ^ w)
/-- `a.wrapping_mul(b)`, `Wrapping` multiplication. -/
def wmul (w a b : Nat) : Option Nat := some ((a * b) % 2 ^ w)

/-- `self.ctr += k` on a counter field of width `w`, with overflow check. -/
def bump (w : Nat) (n : BitVec w) (k : Nat) : Option (BitVec w) := (add w n.toNat k).map (BitVec.ofNat w)
/-- `self.ctr = self.ctr.wrapping_add(k)`. -/
def wbump (w : Nat) (n : BitVec w) (k : Nat) : Option (BitVec w) := some (n + BitVec.ofNat w k)

/-- The bookkeeping of one hasher: what `update_blocks` does to the counter given the number of blocks, and the length value
computed by finalization from the counter and the buffer position. -/
structure Book (w : Nat) where
  kind : BufKind
  bs : Nat
  upd : BitVec w → Nat → Option (BitVec w)
  fin : Nat → Nat → Option Nat

/-- The counter as a core driven by `CoreWrapper`. -/
def Book.core {w : Nat} (k : Book w) : Core (Option (BitVec w)) (Option Nat) where
  kind := k.kind
  bs := k.bs
  init := some 0
  updateBlocks := fun s blks => s.bind fun n => k.upd n blks.length
  finalize := fun s buf => s.bind fun n => k.fin n.toNat buf.pos
  reset := fun _ => some 0
  serialize := fun _ => []
  deserialize := fun _ => none
  serLen := 0

/-- `8 * (buffer.get_pos() as u64 + bs * self.block_len)` -/
def bitLen (w bs n pos : Nat) : Option Nat := (mul w bs n).bind fun x => (add w pos x).bind fun y => mul w 8 y

/-- sha2/src/core_api.rs:41,67-68 -/
def sha256 : Book 64 := ⟨.eager, 64, bump 64, bitLen 64 64⟩
/-- sha2/src/core_api.rs:157,185-186 -/
def sha512 : Book 128 := ⟨.eager, 128, bump 128, bitLen 128 128⟩
/-- sha1/src/lib.rs:67,76-77 -/
def sha1 : Book 64 := ⟨.eager, 64, bump 64, bitLen 64 64⟩
/-- sm3/src/lib.rs:60,68-69 -/
def sm3 : Book 64 := ⟨.eager, 64, bump 64, bitLen 64 64⟩
/-- ripemd/src/lib.rs:71,81-82 -/
def ripemd : Book 64 := ⟨.eager, 64, bump 64, bitLen 64 64⟩
/-- tiger/src/lib.rs:68,78-80 -/
def tiger : Book 64 := ⟨.eager, 64, bump 64, bitLen 64 64⟩
/-- sha1-checked/src/lib.rs:183 and, without detection, :117 -/
def sha1Plain : Book 64 := ⟨.eager, 64, bump 64, bitLen 64 64⟩
/-- sha1-checked/src/lib.rs:183,115 and compress.rs:756,775: `total + last_block.len() as u64`, then `total <<= 3` (a shift
drops the high bits without a check). -/
def sha1Detect : Book 64 :=
  ⟨.eager, 64, bump 64, fun n pos => (mul 64 64 n).bind fun t => (add 64 t pos).map fun t => t * 8 % 2 ^ 64⟩
/-- fsb/src/macros.rs:35,45-46 -/
def fsb (bs : Nat) : Book 64 :=
  ⟨.eager, bs, bump 64, fun n pos => (mul 64 n bs).bind fun x => (add 64 x pos).bind fun y => mul 64 8 y⟩
/-- groestl/src/lib.rs:65,92-96 (short) and :196,223-227 (long): padded length in blocks. -/
def groestl (bs : Nat) : Book 64 := ⟨.eager, bs, bump 64, fun n pos => if bs - pos ≤ 8 then add 64 n 2 else add 64 n 1⟩
/-- kupyna/src/short.rs:40,68-70, long.rs:40,70-72: counter `u64`, length computed in `u128`. -/
def kupyna (bs : Nat) : Book 64 :=
  ⟨.eager, bs, bump 64, fun n pos => (mul 128 n bs).bind fun x => (add 128 x pos).bind fun y => mul 128 8 y⟩
/-- md4/src/lib.rs:69,79-81 (`Wrapping`) -/
def md4 : Book 64 := ⟨.eager, 64, wbump 64, fun n pos => (wmul 64 64 n).bind fun x => (wadd 64 x pos).bind fun y => wmul 64 8 y⟩
/-- md5/src/lib.rs:62,71-75 -/
def md5 : Book 64 := ⟨.eager, 64, wbump 64, fun n pos => (wmul 64 n 64).bind fun x => (wadd 64 x pos).bind fun y => wmul 64 y 8⟩
/-- jh/src/lib.rs:67,95-98 -/
def jh : Book 64 := ⟨.eager, 64, wbump 64, fun n pos => (wmul 64 n 64).bind fun x => (wadd 64 x pos).bind fun y => wmul 64 y 8⟩
/-- belt-hash/src/lib.rs:83,98-99: `r` wraps, the final expression is checked. -/
def belt : Book 128 := ⟨.eager, 32, wbump 128, fun n pos => (mul 128 32 n).bind fun x => (add 128 x pos).bind fun y => mul 128 8 y⟩

/-- `for block in blocks { self.t += block.len() as u64; .. }` -/
def perBlock (bs : Nat) : W64 → Nat → Option W64
  | n, 0 => some n
  | n, k + 1 => (bump 64 n bs).bind fun n => perBlock bs n k
/-- blake2/src/macros.rs:195-197,223: bytes compressed so far. -/
def blake2 (bs : Nat) : Book 64 := ⟨.lazy, bs, perBlock bs, add 64⟩
/-- skein/src/lib.rs:70,103-107,114-117: byte position in the tweak. -/
def skein (bs : Nat) : Book 64 := ⟨.lazy, bs, perBlock bs, add 64⟩

/-- whirlpool/src/lib.rs:64-65,75,93-106: the 256-bit sum is by `adc` (never panics), the product
`block_bits * blocks.len()` and `8 * pos` are checked `u64`. -/
def whirlpool : Book 256 :=
  ⟨.eager, 64, fun n k => (mul 64 512 k).map fun x => n + BitVec.ofNat 256 x, fun n pos => (mul 64 8 pos).map fun x => (n + x) % 2 ^ 256⟩

end Hashes.Count
