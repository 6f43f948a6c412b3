import Verif.Base.Vec
import Verif.Model.CoreWrapper
import Verif.Model.Xof
/-
Model of Ascon-Hash256 and Ascon-XOF128: /repo/ascon-hash/src/lib.rs. The 12-round permutation `ascon::State::permute_12` is
external and is the parameter `P` of every definition.
-/
namespace Hashes.Ascon

/-- `ascon::State`: five 64-bit words (external). -/
abbrev State := V5 W64

/-- `pad`, lib.rs:27-29 -/
def pad (n : Nat) : W64 := 0x01 <<< (8 * n)

/-- `Parameters`, lib.rs:51-57, and `HashCore::default`, lib.rs:122-127 -/
def ivHash : State :=
  ⟨0x9b1e5494e934d681, 0x4bc3a01e333751d2, 0xae65396c6b34b81a, 0x3c7fd4a4d56a4db3, 0x1a5c464906c5976d⟩

/-- `ParametersXof`, lib.rs:63-69 -/
def ivXof : State :=
  ⟨0xda82ce768d9447eb, 0xcc7ce6c75f1ef969, 0xe7508fd780085631, 0x0ee0ea53416b58cc, 0xe0547524db6f0bde⟩

/-- `absorb_block`, lib.rs:78-81 -/
def absorbBlock (P : State → State) (s : State) (block : Bytes) : State :=
  P { s with x0 := s.x0 ^^^ BitVec.ofNat 64 (ofLE block) }

/-- `absorb_last_block`, lib.rs:83-94 -/
def absorbLastBlock (P : State → State) (s : State) (block : Bytes) : State :=
  let len := block.length
  let s := if len > 0 then
      let tmp := block ++ List.replicate (8 - len) 0
      { s with x0 := s.x0 ^^^ BitVec.ofNat 64 (ofLE tmp) }
    else s
  P { s with x0 := s.x0 ^^^ pad len }

/-- `squeeze`, lib.rs:97-106, for an output of `8 * (k + 1)` bytes: `k` iterations of the loop and the last copy. -/
def squeeze (P : State → State) : Nat → State → Bytes
  | 0, s => leBytes 8 s.x0.toNat
  | k + 1, s => leBytes 8 s.x0.toNat ++ squeeze P k (P s)

/-- `squeeze_block`, lib.rs:109-113 -/
def squeezeBlock (P : State → State) (s : State) : Bytes × State := (leBytes 8 s.x0.toNat, P s)

/-- `update_blocks`, lib.rs:151-155 and :196-200 -/
def updateBlocks (P : State → State) (s : State) (blks : List Bytes) : State := blks.foldl (absorbBlock P) s

/-- `AsconHash256`, lib.rs:254: `finalize_fixed_core` :159-164, `Eager` :143, block size :139, output size 32 :147;
no `SerializableState`. -/
def hash256 (P : State → State) : Core State Bytes where
  kind := .eager
  bs := 8
  init := ivHash
  updateBlocks := updateBlocks P
  finalize := fun s buffer => squeeze P 3 (absorbLastBlock P s (buffer.data.take buffer.pos))
  reset := fun _ => ivHash
  serialize := fun _ => []
  deserialize := fun _ => none
  serLen := 0

/-- `AsconXof128`, lib.rs:267: `finalize_xof_core` :222-229, `Eager` :192, block size :188. -/
def xof128 (P : State → State) : Core State State where
  kind := .eager
  bs := 8
  init := ivXof
  updateBlocks := updateBlocks P
  finalize := fun s buffer => absorbLastBlock P s (buffer.data.take buffer.pos)
  reset := fun _ => ivXof
  serialize := fun _ => []
  deserialize := fun _ => none
  serLen := 0

/-- `AsconXofReaderCore`, lib.rs:205-217 -/
def reader (P : State → State) : XofCore State where
  bs := 8
  readBlock := squeezeBlock P

end Hashes.Ascon
