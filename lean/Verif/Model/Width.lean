import Verif.Model.K12
/-
The two places where a hash depends on the width `p` of `usize`: the products `len() * 8` of cSHAKE's constructor
(/repo/sha3/src/macros.rs:494, :507) and the counter `chain_length: usize` of KangarooTwelve (/repo/k12/src/lib.rs:39,
:66).  Model/Keccak.lean computes the product in 64 bits, Model/K12.lean counts in natural numbers.  With overflow checks
(`checked = true`) an overflow is a panic (`none`), without them the value wraps.
-/
namespace Hashes

/-- `a * b` on `usize`. -/
def usizeMul (checked : Bool) (p a b : Nat) : Option Nat :=
  if a * b < 2 ^ p then some (a * b) else if checked then none else some (a * b % 2 ^ p)

namespace Sha3

/-- `new_with_function_name`, macros.rs:475-527, on a target with `p`-bit `usize`. -/
def CShake.newOn (checked : Bool) (p : Nat) (f : Lanes → Lanes) (rate : Nat) (name cust : Bytes) : Option CShake :=
  let state := zero
  if name.isEmpty ∧ cust.isEmpty then some ⟨state, state, 0x1f⟩
  else
    let feed (a : BlockBuffer × Lanes) (d : Bytes) := a.1.digestBlocks .eager rate d (updateBlocks f) a.2
    let b : Bytes := List.replicate 9 0
    let a := (BlockBuffer.empty rate, state)
    let e := leftEncode (BitVec.ofNat 64 rate) b
    let a := feed a e.1
    match usizeMul checked p name.length 8 with
    | none => none
    | some n =>
      let e := leftEncode (BitVec.ofNat 64 n) e.2
      let a := feed a e.1
      let a := feed a name
      match usizeMul checked p cust.length 8 with
      | none => none
      | some n =>
        let e := leftEncode (BitVec.ofNat 64 n) e.2
        let a := feed a e.1
        let a := feed a cust
        let state := absorbBlock f a.2 (a.1.padWithZeros rate).1
        some ⟨state, state, 0x04⟩

/-- The hasher around a constructed core (the rest of `impl_cshake!`, macros.rs:529-648, does not mention `usize` lengths). -/
def cshakeOn (f : Lanes → Lanes) (rate : Nat) (init : CShake) : Core CShake Lanes := { cshake f rate [] [] with init := init }

end Sha3

namespace K12
open Sha3

/-- `process_chunk`, lib.rs:58-69, with `chain_length: usize` of `p` bits, without overflow checks. -/
def processChunkOn (p : Nat) (s : State) : State :=
  let s := if s.chainLength = 0 then { s with finalT := (tshk 0x06).update s.finalT s.buffer }
    else processChainingChunk s
  { s with chainLength := (s.chainLength + 1) % 2 ^ p, buffer := List.replicate CHUNK_SIZE 0, bufpos := 0 }

/-- Body of the loop in `update_blocks`, lib.rs:98-105. -/
def updateBlockOn (p : Nat) (s : State) (block : Bytes) : State :=
  let s := if s.bufpos = CHUNK_SIZE then processChunkOn p s else s
  { s with buffer := overwrite s.buffer s.bufpos block, bufpos := s.bufpos + 128 }

/-- `update_blocks`, lib.rs:97-106. -/
def updateBlocksOn (p : Nat) (s : State) (blks : List Bytes) : State := blks.foldl (updateBlockOn p) s

/-- `finalize_xof_core`, lib.rs:113-152. -/
def finalizeOn (p : Nat) (s : State) (buffer : BlockBuffer) : Reader Lanes :=
  let a := buffer.digestBlocks .eager 128 s.customization (updateBlocksOn p) s
  let a := a.1.digestBlocks .eager 128 (lengthEncode s.customization.length) (updateBlocksOn p) a.2
  let buffer := a.1
  let s := a.2
  let s := if s.bufpos = CHUNK_SIZE ∧ buffer.pos ≠ 0 then processChunkOn p s else s
  let s := { s with buffer := overwrite s.buffer s.bufpos buffer.content, bufpos := s.bufpos + buffer.pos }
  if s.chainLength = 0 then
    (Sha3.xof f12 168).reader ((tshk 0x07).finish ((tshk 0x07).update (tshk 0x07).new (s.buffer.take s.bufpos)))
  else
    let s := processChainingChunk s
    let final := (tshk 0x06).update s.finalT (lengthEncode s.chainLength)
    let final := (tshk 0x06).update final [0xff, 0xff]
    (Sha3.xof f12 168).reader ((tshk 0x06).finish final)

/-- `KangarooTwelve` on a target with `p`-bit `usize`, lib.rs:84-174. -/
def coreOn (p : Nat) (customization : Bytes) : Core State (Reader Lanes) where
  kind := .eager
  bs := 128
  init := new customization
  updateBlocks := updateBlocksOn p
  finalize := finalizeOn p
  reset := fun s => new s.customization
  serialize := fun _ => []
  deserialize := fun _ => none
  serLen := 0

end K12
end Hashes
