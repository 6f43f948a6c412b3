import Verif.Model.Keccak
/- Model of the k12 crate: /repo/k12/src/lib.rs. -/
namespace Hashes.K12
open Sha3

/-- `CHUNK_SIZE`, lib.rs:26 -/
def CHUNK_SIZE : Nat := 8192
/-- `CHAINING_VALUE_SIZE`, lib.rs:27 -/
def CHAINING_VALUE_SIZE : Nat := 32

/-- `TurboShake128::from_core(TurboShake128Core::new(d))` for the constants 0x06, 0x07, 0x0B (legal domain bytes,
so `new` does not panic; lib.rs:52-53,135). -/
def tshk (d : Byte) : Core Turbo Lanes := turbo f12 168 ⟨zero, d⟩

/-- `KangarooTwelveCore`, lib.rs:33-40. -/
structure State where
  customization : Bytes
  buffer : Bytes
  bufpos : Nat
  finalT : Hasher Turbo
  chainT : Hasher Turbo
  chainLength : Nat

/-- `new`, lib.rs:47-56; `default` (lib.rs:155-167) is `new []`. -/
def new (customization : Bytes) : State :=
  ⟨customization, List.replicate CHUNK_SIZE 0, 0, (tshk 0x06).new, (tshk 0x0B).new, 0⟩

/-- `process_chaining_chunk`, lib.rs:71-82. -/
def processChainingChunk (s : State) : State :=
  let final := if s.chainLength = 1 then (tshk 0x06).update s.finalT [0x03, 0, 0, 0, 0, 0, 0, 0] else s.finalT
  let chain := (tshk 0x0B).update s.chainT (s.buffer.take s.bufpos)
  let result := ((xof f12 168).read ((xof f12 168).reader ((tshk 0x0B).finish chain)) CHAINING_VALUE_SIZE).1
  let chain := (tshk 0x0B).resetH chain
  { s with finalT := (tshk 0x06).update final result, chainT := chain }

/-- `process_chunk`, lib.rs:58-69. -/
def processChunk (s : State) : State :=
  let s := if s.chainLength = 0 then { s with finalT := (tshk 0x06).update s.finalT s.buffer }
    else processChainingChunk s
  { s with chainLength := s.chainLength + 1, buffer := List.replicate CHUNK_SIZE 0, bufpos := 0 }

/-- Body of the loop in `update_blocks`, lib.rs:98-105. -/
def updateBlock (s : State) (block : Bytes) : State :=
  let s := if s.bufpos = CHUNK_SIZE then processChunk s else s
  { s with buffer := overwrite s.buffer s.bufpos block, bufpos := s.bufpos + 128 }

/-- `update_blocks`, lib.rs:97-106. -/
def updateBlocks (s : State) (blks : List Bytes) : State := blks.foldl updateBlock s

/-- The loop of `length_encode`, lib.rs:232-236: bytes written to `buffer[0..bufpos]`, before reversing. -/
def digitsLE : Nat → Nat → Bytes
  | 0, _ => []
  | fuel + 1, length => if length > 0 then BitVec.ofNat 8 (length % 256) :: digitsLE fuel (length / 256) else []

/-- `length_encode`, lib.rs:230-243 (the 255-byte scratch array is not modelled: every byte of the returned slice is
written first, and a 64-bit length needs at most 9 of them). -/
def lengthEncode (length : Nat) : Bytes :=
  let d := digitsLE length length
  d.reverse ++ [BitVec.ofNat 8 d.length]

/-- `finalize_xof_core`, lib.rs:113-152; the reader core wraps a `TurboShake128` reader. -/
def finalize (s : State) (buffer : BlockBuffer) : Reader Lanes :=
  let a := buffer.digestBlocks .eager 128 s.customization updateBlocks s
  let a := a.1.digestBlocks .eager 128 (lengthEncode s.customization.length) updateBlocks a.2
  let buffer := a.1
  let s := a.2
  let s := if s.bufpos = CHUNK_SIZE ∧ buffer.pos ≠ 0 then processChunk s else s
  let s := { s with buffer := overwrite s.buffer s.bufpos buffer.content, bufpos := s.bufpos + buffer.pos }
  if s.chainLength = 0 then
    (xof f12 168).reader ((tshk 0x07).finish ((tshk 0x07).update (tshk 0x07).new (s.buffer.take s.bufpos)))
  else
    let s := processChainingChunk s
    let final := (tshk 0x06).update s.finalT (lengthEncode s.chainLength)
    let final := (tshk 0x06).update final [0xff, 0xff]
    (xof f12 168).reader ((tshk 0x06).finish final)

/-- `KangarooTwelve` as a core, lib.rs:84-174. -/
def core (customization : Bytes) : Core State (Reader Lanes) where
  kind := .eager
  bs := 128
  init := new customization
  updateBlocks := updateBlocks
  finalize := finalize
  reset := fun s => new s.customization
  serialize := fun _ => []
  deserialize := fun _ => none
  serLen := 0

/-- `KangarooTwelveReaderCore::read_block`, lib.rs:217-224. -/
def xof : XofCore (Reader Lanes) where
  bs := 168
  readBlock := fun r => (Sha3.xof f12 168).read r 168

end Hashes.K12
