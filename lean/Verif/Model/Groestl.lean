import Verif.Base.Vec
import Verif.Model.VarCore
import Verif.Model.GroestlTables
/- Model of Groestl: /repo/groestl/src/{lib.rs,compress512.rs,compress1024.rs,table.rs}. The two compression files are the
same text up to `COLS`, `ROUNDS` and the column index lists, which are the fields of `Cfg`; likewise for the two cores. -/
namespace Hashes.Groestl

/-- What differs between the short and the long variant. -/
structure Cfg where
  cols : Nat
  rounds : Nat
  idxQ : List (List Nat)
  idxP : List (List Nat)

/-- compress512.rs:4-5, index lists of `rndq` :24-31 and `rndp` :41-48 -/
def short : Cfg where
  cols := 8
  rounds := 10
  idxQ := [
    [1, 3, 5, 7, 0, 2, 4, 6], [2, 4, 6, 0, 1, 3, 5, 7], [3, 5, 7, 1, 2, 4, 6, 0], [4, 6, 0, 2, 3, 5, 7, 1],
    [5, 7, 1, 3, 4, 6, 0, 2], [6, 0, 2, 4, 5, 7, 1, 3], [7, 1, 3, 5, 6, 0, 2, 4], [0, 2, 4, 6, 7, 1, 3, 5]]
  idxP := [
    [0, 1, 2, 3, 4, 5, 6, 7], [1, 2, 3, 4, 5, 6, 7, 0], [2, 3, 4, 5, 6, 7, 0, 1], [3, 4, 5, 6, 7, 0, 1, 2],
    [4, 5, 6, 7, 0, 1, 2, 3], [5, 6, 7, 0, 1, 2, 3, 4], [6, 7, 0, 1, 2, 3, 4, 5], [7, 0, 1, 2, 3, 4, 5, 6]]

/-- compress1024.rs:4-5, index lists of `rndq` :24-39 and `rndp` :49-64 -/
def long : Cfg where
  cols := 16
  rounds := 14
  idxQ := [
    [1, 3, 5, 11, 0, 2, 4, 6], [2, 4, 6, 12, 1, 3, 5, 7], [3, 5, 7, 13, 2, 4, 6, 8], [4, 6, 8, 14, 3, 5, 7, 9],
    [5, 7, 9, 15, 4, 6, 8, 10], [6, 8, 10, 0, 5, 7, 9, 11], [7, 9, 11, 1, 6, 8, 10, 12], [8, 10, 12, 2, 7, 9, 11, 13],
    [9, 11, 13, 3, 8, 10, 12, 14], [10, 12, 14, 4, 9, 11, 13, 15], [11, 13, 15, 5, 10, 12, 14, 0],
    [12, 14, 0, 6, 11, 13, 15, 1], [13, 15, 1, 7, 12, 14, 0, 2], [14, 0, 2, 8, 13, 15, 1, 3],
    [15, 1, 3, 9, 14, 0, 2, 4], [0, 2, 4, 10, 15, 1, 3, 5]]
  idxP := [
    [0, 1, 2, 3, 4, 5, 6, 11], [1, 2, 3, 4, 5, 6, 7, 12], [2, 3, 4, 5, 6, 7, 8, 13], [3, 4, 5, 6, 7, 8, 9, 14],
    [4, 5, 6, 7, 8, 9, 10, 15], [5, 6, 7, 8, 9, 10, 11, 0], [6, 7, 8, 9, 10, 11, 12, 1], [7, 8, 9, 10, 11, 12, 13, 2],
    [8, 9, 10, 11, 12, 13, 14, 3], [9, 10, 11, 12, 13, 14, 15, 4], [10, 11, 12, 13, 14, 15, 0, 5],
    [11, 12, 13, 14, 15, 0, 1, 6], [12, 13, 14, 15, 0, 1, 2, 7], [13, 14, 15, 0, 1, 2, 3, 8],
    [14, 15, 0, 1, 2, 3, 4, 9], [15, 0, 1, 2, 3, 4, 5, 10]]

/-- `TABLE`, table.rs:2-11 -/
def TABLE : List (List W64) :=
  [tabNat0, tabNat1, tabNat2, tabNat3, tabNat4, tabNat5, tabNat6, tabNat7].map (List.map (BitVec.ofNat 64))

variable {n : Nat}

/-- `column`, compress512.rs:7-16, compress1024.rs:7-16 -/
def column (x : Arr 64 n) (c : List Nat) : W64 :=
  (List.range 8).foldl (fun t i =>
    let sl := 8 * (7 - i)
    let idx := ((x.get (c.getD i 0) >>> sl) &&& 0xFF).toNat
    t ^^^ (TABLE.getD i []).getD idx 0) 0

/-- `rndq`, compress512.rs:18-33, compress1024.rs:18-41 -/
def rndq (g : Cfg) (x : Arr 64 n) (r : W64) : Arr 64 n :=
  let x := Arr.ofFn n fun i => x.get i ^^^ (((0xFFFFFFFFFFFFFFFF : W64) - (BitVec.ofNat 64 i <<< 4)) ^^^ r)
  Arr.ofFn n fun j => column x (g.idxQ.getD j [])

/-- `rndp`, compress512.rs:35-50, compress1024.rs:43-66 -/
def rndp (g : Cfg) (x : Arr 64 n) (r : W64) : Arr 64 n :=
  let x := Arr.ofFn n fun i => x.get i ^^^ ((BitVec.ofNat 64 i <<< 60) ^^^ r)
  Arr.ofFn n fun j => column x (g.idxP.getD j [])

/-- The `ROUNDS` iterations of `rndq`, compress512.rs:61-63 -/
def permQ (g : Cfg) (q : Arr 64 n) : Arr 64 n :=
  (List.range g.rounds).foldl (fun q i => rndq g q (BitVec.ofNat 64 i)) q

/-- The `ROUNDS` iterations of `rndp`, compress512.rs:64-66 -/
def permP (g : Cfg) (p : Arr 64 n) : Arr 64 n :=
  (List.range g.rounds).foldl (fun p i => rndp g p (BitVec.ofNat 64 i <<< 56)) p

/-- `compress`, compress512.rs:52-70, compress1024.rs:68-86 -/
def compress (g : Cfg) (h : Arr 64 n) (block : Bytes) : Arr 64 n :=
  let q := Arr.ofFn n (wordBE 64 block)
  let p := Arr.ofFn n fun i => h.get i ^^^ q.get i
  let q := permQ g q
  let p := permP g p
  Arr.ofFn n fun i => h.get i ^^^ (q.get i ^^^ p.get i)

/-- `p`, compress512.rs:72-81, compress1024.rs:88-97 -/
def pFinal (g : Cfg) (h : Arr 64 n) : Arr 64 n :=
  let p := permP g h
  Arr.ofFn n fun i => p.get i ^^^ h.get i

/-- `GroestlShortVarCore` lib.rs:35-38, `GroestlLongVarCore` lib.rs:166-169 -/
@[ext] structure State (n : Nat) where
  state : Arr 64 n
  blocksLen : W64
deriving DecidableEq

/-- `new(output_size)`, lib.rs:80-88, :211-219 -/
def new (g : Cfg) (outputSize : Nat) : Option (State g.cols) :=
  if 4 * g.cols < outputSize then none
  else some ⟨Arr.ofFn g.cols fun i => if i = g.cols - 1 then BitVec.ofNat 64 (8 * outputSize) else 0, 0⟩

/-- `update_blocks`, lib.rs:64-69, :195-200 -/
def updateBlocks (g : Cfg) (s : State n) (blks : List Bytes) : State n :=
  ⟨blks.foldl (compress g) s.state, s.blocksLen + BitVec.ofNat 64 blks.length⟩

/-- `finalize_variable_core`, lib.rs:91-105, :222-236; `buffer.remaining()` is the block size minus the cursor. -/
def finalizeFull (g : Cfg) (s : State n) (buffer : BlockBuffer) : Bytes :=
  let blocksLen := if 8 * n - buffer.pos ≤ 8 then s.blocksLen + 2 else s.blocksLen + 1
  let st := buffer.len64PaddingBE (8 * n) blocksLen (compress g) s.state
  let res := pFinal g st
  bytesOfWordsBE (res.toList.drop (n / 2))

/-- `serialize`, lib.rs:134-143, :265-274 -/
def serialize (s : State n) : Bytes := bytesOfWordsLE s.state.toList ++ leBytes 8 s.blocksLen.toNat

/-- `deserialize`, lib.rs:145-158, :276-289 -/
def deserialize (n : Nat) (raw : Bytes) : Option (State n) :=
  if raw.length = 8 * n + 8 then
    some ⟨Arr.ofFn n (wordLE 64 raw), BitVec.ofNat 64 (ofLE (raw.drop (8 * n)))⟩
  else none

/-- `VariableOutputCore` of either variant: `Eager` lib.rs:59,:190, `TRUNC_SIDE = Right` :77,:208, output size 32 / 64
:73,:204, block size 64 / 128 :55,:186. -/
def varCore (g : Cfg) : VarCore (State g.cols) where
  kind := .eager
  bs := 8 * g.cols
  outLen := 4 * g.cols
  new := new g
  updateBlocks := updateBlocks g
  finalizeFull := finalizeFull g
  side := .right
  serialize := serialize
  deserialize := deserialize g.cols
  serLen := 8 * g.cols + 8

/-- `GroestlShort<OutSize>` / `GroestlLong<OutSize>`, lib.rs:45,:176 -/
def core (g : Cfg) (outSize : Nat) : Option (Core (State g.cols) Bytes) := (varCore g).ct outSize

end Hashes.Groestl
