import Verif.Base.Vec
import Verif.Model.CoreWrapper
/-
Model of Skein-256/512/1024: /repo/skein/src/lib.rs, macro `define_hasher!`, for a state of `n` 64-bit words
(`n` = 4, 8, 16) and an output of `N` bytes. The block cipher (`threefish` crate) is external and is the parameter
`E key tweak block` of every definition.
-/
namespace Hashes.Skein

/-- `threefish::Threefish*::new_with_tweak_u64(key, tweak).encrypt_block_u64(block)`: external. -/
abbrev Cipher (n : Nat) := Arr 64 n → W64 × W64 → Arr 64 n → Arr 64 n

/-- lib.rs:29-38 -/
def SCHEMA_VER : W64 := (1#64 <<< 32) ||| 0x33414853
def T1_FLAG_FIRST : W64 := 1#64 <<< 62
def T1_FLAG_FINAL : W64 := 1#64 <<< 63
def T1_BLK_TYPE_CFG : W64 := 4#64 <<< 56
def T1_BLK_TYPE_MSG : W64 := 48#64 <<< 56
def T1_BLK_TYPE_OUT : W64 := 63#64 <<< 56
def CFG_STR_LEN : Nat := 4 * 8

/-- `$name<N>`, lib.rs:48-52 -/
structure State (n : Nat) where
  t0 : W64
  t1 : W64
  x : Arr 64 n
deriving DecidableEq

variable {n : Nat} (E : Cipher n)

/-- `blank_state`, lib.rs:59-65 -/
def blankState (t1 : W64) (x : Arr 64 n) : State n := ⟨0, t1, x⟩

/-- `process_block`, lib.rs:67-85 (release-profile wrapping add, see DESIGN.md §2) -/
def processBlock (s : State n) (block : Bytes) (byteCountAdd : Nat) : State n :=
  let t0 := s.t0 + BitVec.ofNat 64 byteCountAdd
  let t := Arr.ofFn n (wordLE 64 block)
  let x := E s.x (t0, s.t1) t
  ⟨t0, s.t1 &&& ~~~T1_FLAG_FIRST, Arr.ofFn n fun i => t.get i ^^^ x.get i⟩

/-- `update_blocks`, lib.rs:104-108 -/
def updateBlocks (s : State n) (blks : List Bytes) : State n := blks.foldl (fun s b => processBlock E s b b.length) s

/-- Chunk `i` of the output loop, lib.rs:122-131: only whole 8-byte pieces of `chunk` are written. -/
def outChunk (x : Arr 64 n) (i : Nat) (chunk : Bytes) : Bytes :=
  let flag := T1_FLAG_FIRST ||| T1_BLK_TYPE_OUT ||| T1_FLAG_FINAL
  let ctr := blankState flag x
  let block := leBytes 8 i ++ List.replicate (8 * n - 8) 0
  let ctr := processBlock E ctr block 8
  let k := chunk.length / 8
  (bytesOfWordsLE ctr.x.toList).take (8 * k) ++ chunk.drop (8 * k)

/-- `finalize_fixed_core`, lib.rs:113-132, writing into a buffer that holds `out` (`N` bytes). -/
def finalizeInto (s : State n) (buffer : BlockBuffer) (out : Bytes) : Bytes :=
  let s := { s with t1 := s.t1 ||| T1_FLAG_FINAL }
  let pos := buffer.pos
  let finalBlock := (buffer.padWithZeros (8 * n)).1
  let s := processBlock E s finalBlock pos
  let sb := 8 * n
  (List.range ((out.length + sb - 1) / sb)).flatMap fun i => outChunk E s.x i ((out.drop (sb * i)).take sb)

/-- `Default`, lib.rs:136-154 -/
def init (N : Nat) : State n :=
  let state := blankState (T1_FLAG_FIRST ||| T1_BLK_TYPE_CFG ||| T1_FLAG_FINAL) (Arr.ofFn n fun _ => 0)
  let cfg := leBytes 8 SCHEMA_VER.toNat ++ leBytes 8 (N * 8) ++ leBytes 8 0 ++ List.replicate (8 * n - 24) 0
  let state := processBlock E state cfg CFG_STR_LEN
  { state with t0 := 0, t1 := T1_FLAG_FIRST ||| T1_BLK_TYPE_MSG }

/-- `Skein*<N>`: `Lazy` :95, block size :91, output size :99; no `SerializableState`. `finalize_fixed` passes a zeroed output
array. -/
def core (N : Nat) : Core (State n) Bytes where
  kind := .lazy
  bs := 8 * n
  init := init E N
  updateBlocks := updateBlocks E
  finalize := fun s buffer => finalizeInto E s buffer (List.replicate N 0)
  reset := fun _ => init E N
  serialize := fun _ => []
  deserialize := fun _ => none
  serLen := 0

end Hashes.Skein
