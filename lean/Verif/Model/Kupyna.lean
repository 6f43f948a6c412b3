import Verif.Base.Vec
import Verif.Model.VarCore
import Verif.Model.KupynaTables
/- Model of Kupyna: /repo/kupyna/src/{utils.rs,short_compress.rs,long_compress.rs,short.rs,long.rs,consts.rs}. The short and
long files are the same text up to the constants collected in `Cfg`. -/
namespace Hashes.Kupyna

/-- What differs between the short and the long variant. -/
structure Cfg where
  /-- `COLS`, short_compress.rs:3 / long_compress.rs:3 -/
  cols : Nat
  /-- `ROUNDS`, :4 -/
  rounds : Nat
  /-- the shift of the last row, :72 -/
  lastShift : Nat
  /-- first byte of the initial state, short.rs:60 / long.rs:62 -/
  ivByte : W64
  /-- smallest accepted output size, short.rs:56 / long.rs:56-58 -/
  minOut : Nat

def short : Cfg := ⟨8, 10, 7, 0x40, 0⟩
def long : Cfg := ⟨16, 14, 11, 0x80, 32⟩

/-- A matrix `[[u8; 8]; N]`: list of `N` byte lists. -/
abbrev Matrix := List Bytes

/-- `state[col][row]` -/
def at' (m : Matrix) (a b : Nat) : Byte := (m.getD a []).getD b 0

/-- Build a matrix cell by cell. -/
def build (n : Nat) (f : Nat → Nat → Byte) : Matrix := (List.range n).map fun a => (List.range 8).map fun b => f a b

/-- `SBOXES`, consts.rs:12 -/
def SBOXES : List (List Byte) := [sboxNat0, sboxNat1, sboxNat2, sboxNat3].map (List.map (BitVec.ofNat 8))

/-- `MDS_MATRIX[row][b]`, consts.rs:1 -/
def MDS (row b : Nat) : Byte := BitVec.ofNat 8 (mdsNat.getD (8 * row + b) 0)

/-- One iteration of the loop of `multiply_gf`, utils.rs:9-19: `(x, y, r)`. -/
def gfStep (s : Byte × Byte × Byte) : Byte × Byte × Byte :=
  let (x, y, r) := s
  let r := if y &&& 1 = 1 then r ^^^ x else r
  let hbit := (x &&& 0x80) >>> 7
  let x := x <<< 1
  let x := if hbit = 1 then x ^^^ 0x1d else x
  (x, y >>> 1, r)

/-- `multiply_gf`, utils.rs:3-22 -/
def multiplyGf (x y : Byte) : Byte := (Nat.repeat gfStep 8 (x, y, 0)).2.2

/-- `mix_columns`, utils.rs:25-39 -/
def mixColumns (n : Nat) (state : Matrix) : Matrix :=
  build n fun col row => (List.range 8).foldl (fun product b => product ^^^ multiplyGf (at' state col b) (MDS row b)) 0

/-- `apply_s_box`, utils.rs:41-48 -/
def applySBox (n : Nat) (state : Matrix) : Matrix :=
  build n fun j i => (SBOXES.getD (i % 4) []).getD (at' state j i).toNat 0

/-- `add_constant_xor`, utils.rs:50-59 -/
def addConstantXor (n : Nat) (state : Matrix) (round : Nat) : Matrix :=
  build n fun j i => if i = 0 then at' state j i ^^^ BitVec.ofNat 8 ((j * 0x10) ^^^ round) else at' state j i

/-- `add_constant_plus`, utils.rs:61-72 -/
def addConstantPlus (n : Nat) (state : Matrix) (round : Nat) : Matrix :=
  (List.range n).map fun j =>
    let row : W64 := BitVec.ofNat 64 (ofLE (state.getD j []))
    let row := row + ((0x00F0F0F0F0F0F0F3 : W64) ^^^ (BitVec.ofNat 64 (((n - j - 1) * 0x10) ^^^ round) <<< 56))
    leBytes 8 row.toNat

/-- `rotate_rows`, short_compress.rs:64-84, long_compress.rs:64-84. `shift` starts at -1 and is incremented before use, so it
is `i` in pass `i`, except for the last pass. The second inner loop writes `state[col][i] = temp[col]` for every `col`. -/
def rotateRows (g : Cfg) (state : Matrix) : Matrix :=
  ((List.range 8).foldl (fun (st : Matrix × Bytes) i =>
    let shift := if i = 8 - 1 then g.lastShift else i
    let temp := (List.range g.cols).foldl (fun t col => t.set ((col + shift) % g.cols) (at' st.1 col i)) st.2
    (build g.cols fun col r => if r = i then temp.getD col 0 else at' st.1 col r, temp))
    (state, List.replicate g.cols 0)).1

/-- `block_to_matrix`, short_compress.rs:38-49 -/
def blockToMatrix (n : Nat) (block : Bytes) : Matrix := build n fun i j => block.getD (i * 8 + j) 0

/-- `matrix_to_block`, short_compress.rs:51-62 -/
def matrixToBlock (m : Matrix) : Bytes := m.flatten

/-- `t_plus_l`, short_compress.rs:27-36 -/
def tPlus (g : Cfg) (block : Bytes) : Bytes :=
  matrixToBlock ((List.range g.rounds).foldl (fun state nu =>
    mixColumns g.cols (rotateRows g (applySBox g.cols (addConstantPlus g.cols state nu)))) (blockToMatrix g.cols block))

/-- `t_xor_l`, short_compress.rs:86-95 -/
def tXor (g : Cfg) (block : Bytes) : Bytes :=
  matrixToBlock ((List.range g.rounds).foldl (fun state nu =>
    mixColumns g.cols (rotateRows g (applySBox g.cols (addConstantXor g.cols state nu)))) (blockToMatrix g.cols block))

/-- `xor_bytes`, utils.rs:75-81 -/
def xorBytes (a b : Bytes) : Bytes := List.zipWith (· ^^^ ·) a b

/-- `compress`, short_compress.rs:8-25 -/
def compress (g : Cfg) (prev : Arr 64 g.cols) (block : Bytes) : Arr 64 g.cols :=
  let prev8 := bytesOfWordsBE prev.toList
  let t1 := tXor g (xorBytes block prev8)
  let t2 := tPlus g block
  let prev8 := xorBytes (xorBytes t1 t2) prev8
  Arr.ofFn g.cols (wordBE 64 prev8)

/-- `KupynaShortVarCore` short.rs:22-25, `KupynaLongVarCore` long.rs:22-25 -/
@[ext] structure State (n : Nat) where
  state : Arr 64 n
  blocksLen : W64
deriving DecidableEq

/-- The initial state, short.rs:59-62 -/
def init (g : Cfg) : State g.cols := ⟨Arr.ofFn g.cols fun i => if i = 0 then g.ivByte <<< 56 else 0, 0⟩

/-- `new(output_size)`, short.rs:55-64, long.rs:55-66 -/
def new (g : Cfg) (outputSize : Nat) : Option (State g.cols) :=
  if outputSize < g.minOut ∨ 4 * g.cols < outputSize then none else some (init g)

/-- `update_blocks`, short.rs:39-44 -/
def updateBlocks (g : Cfg) (s : State g.cols) (blks : List Bytes) : State g.cols :=
  ⟨blks.foldl (compress g) s.state, s.blocksLen + BitVec.ofNat 64 blks.length⟩

/-- `finalize_variable_core`, short.rs:67-95 (lengths in `u128`, which cannot overflow here) -/
def finalizeFull (g : Cfg) (s : State g.cols) (buffer : BlockBuffer) : Bytes :=
  let msgLenBytes : W128 := BitVec.ofNat 128 s.blocksLen.toNat * BitVec.ofNat 128 (8 * g.cols) + BitVec.ofNat 128 buffer.pos
  let msgLenBits := 8 * msgLenBytes
  let state := buffer.digestPad (8 * g.cols) 0x80 ((leBytes 16 msgLenBits.toNat).take 12) (compress g) s.state
  let state8 := bytesOfWordsBE state.toList
  let result := xorBytes state8 (tXor g state8)
  let res : Arr 64 g.cols := Arr.ofFn g.cols (wordBE 64 result)
  bytesOfWordsBE (res.toList.drop (g.cols / 2))

/-- `serialize`, short.rs:127-133 -/
def serialize {n : Nat} (s : State n) : Bytes := bytesOfWordsLE s.state.toList ++ leBytes 8 s.blocksLen.toNat

/-- `deserialize`, short.rs:136-144 -/
def deserialize (n : Nat) (raw : Bytes) : Option (State n) :=
  if raw.length = 8 * n + 8 then
    some ⟨Arr.ofFn n (wordLE 64 raw), BitVec.ofNat 64 (ofLE (raw.drop (8 * n)))⟩
  else none

/-- `VariableOutputCore`: `Eager` short.rs:34, block size :30, output size :48, `TRUNC_SIDE = Right` :52. -/
def varCore (g : Cfg) : VarCore (State g.cols) where
  kind := .eager
  bs := 8 * g.cols
  outLen := 4 * g.cols
  new := new g
  updateBlocks := updateBlocks g
  finalizeFull := finalizeFull g
  side := .right
  serialize := serialize
  deserialize := deserialize g.cols
  serLen := 8 * g.cols + 8

/-- `KupynaShort<OutSize>`, `KupynaLong<OutSize>`, lib.rs:32,:39 -/
def core (g : Cfg) (outSize : Nat) : Option (Core (State g.cols) Bytes) := (varCore g).ct outSize

end Hashes.Kupyna
