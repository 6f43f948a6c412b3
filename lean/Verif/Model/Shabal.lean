import Verif.Model.ShabalTables
import Verif.Model.VarCore
/- Model of Shabal: /repo/shabal/src/{lib,core_api,consts}.rs. -/
namespace Hashes.Shabal

/-- `ShabalVarCore`, core_api.rs:24-29 -/
structure State where
  a : Arr 32 12
  b : Arr 32 16
  c : Arr 32 16
  w : W64
deriving DecidableEq

/-- `add_m`, core_api.rs:33-37 -/
def addM (s : State) (m : Arr 32 16) : State := { s with b := Arr.ofFn 16 fun i => s.b.get i + m.get i }

/-- `sub_m`, core_api.rs:40-44 -/
def subM (s : State) (m : Arr 32 16) : State := { s with c := Arr.ofFn 16 fun i => s.c.get i - m.get i }

/-- `xor_w`, core_api.rs:46-49 -/
def xorW (s : State) : State :=
  let a := s.a.set 0 (s.a.get 0 ^^^ s.w.truncate 32)
  { s with a := a.set 1 (a.get 1 ^^^ (s.w >>> 32).truncate 32) }

/-- `perm_elt`, core_api.rs:72-94 -/
def permElt (s : State) (xa0 xa1 xb0 xb1 xb2 xb3 xc0 : Nat) (xm : W32) : State :=
  let xc := s.c.get xc0
  let t1 := (s.a.get xa1).rotateLeft 15
  let t2 := t1 * 5
  let t3 := (s.a.get xa0 ^^^ t2 ^^^ xc) * 3
  let a := s.a.set xa0 (t3 ^^^ s.b.get xb1 ^^^ (s.b.get xb2 &&& ~~~(s.b.get xb3)) ^^^ xm)
  let t := (s.b.get xb0).rotateLeft 1
  { s with a := a, b := s.b.set xb0 (~~~(t ^^^ a.get xa0)) }

/-- `perm_blocks`, core_api.rs:96-145: the 48 calls, their arguments in `permTable`. -/
def permBlocks (s : State) (m : Arr 32 16) : State :=
  permTable.foldl (fun s r =>
    permElt s (r.getD 0 0) (r.getD 1 0) (r.getD 2 0) (r.getD 3 0) (r.getD 4 0) (r.getD 5 0) (r.getD 6 0) (m.get (r.getD 7 0))) s

/-- The twelve index triples of core_api.rs:57-68. -/
def addTable : List (Nat × Nat × Nat) :=
  [(11, 15, 3), (12, 0, 4), (13, 1, 5), (14, 2, 6), (15, 3, 7), (0, 4, 8), (1, 5, 9), (2, 6, 10), (3, 7, 11), (4, 8, 12),
   (5, 9, 13), (6, 10, 14)]

/-- `perm`, core_api.rs:51-69 -/
def perm (s : State) (m : Arr 32 16) : State :=
  let s := { s with b := Arr.ofFn 16 fun i => (s.b.get i).rotateLeft 17 }
  let s := permBlocks s m
  { s with a := Arr.ofFn 12 fun i =>
      let t := addTable.getD i (0, 0, 0)
      s.a.get i + (s.c.get t.1 + s.c.get t.2.1 + s.c.get t.2.2) }

/-- `swap_b_c`, core_api.rs:147-149 -/
def swapBC (s : State) : State := { s with b := s.c, c := s.b }

/-- `read_m`, core_api.rs:153-160 -/
def readM (b : Bytes) : Arr 32 16 := Arr.ofFn 16 (wordLE 32 b)

/-- One iteration of `update_blocks`, core_api.rs:175-183 -/
def compress (s : State) (block : Bytes) : State :=
  let m := readM block
  let s := swapBC (subM (perm (xorW (addM s m)) m) m)
  { s with w := s.w + 1 }

/-- `update_blocks`, core_api.rs:174-184 -/
def updateBlocks (s : State) (blks : List Bytes) : State := blks.foldl compress s

/-- `new`, core_api.rs:196-211 -/
def new (outputSize : Nat) : Option State :=
  match outputSize with
  | 24 => some ⟨⟨init192A, rfl⟩, ⟨init192B, rfl⟩, ⟨init192C, rfl⟩, 1⟩
  | 28 => some ⟨⟨init224A, rfl⟩, ⟨init224B, rfl⟩, ⟨init224C, rfl⟩, 1⟩
  | 32 => some ⟨⟨init256A, rfl⟩, ⟨init256B, rfl⟩, ⟨init256C, rfl⟩, 1⟩
  | 48 => some ⟨⟨init384A, rfl⟩, ⟨init384B, rfl⟩, ⟨init384C, rfl⟩, 1⟩
  | 64 => some ⟨⟨init512A, rfl⟩, ⟨init512B, rfl⟩, ⟨init512C, rfl⟩, 1⟩
  | _ => none

/-- `finalize_variable_core`, core_api.rs:214-232 -/
def finalizeFull (s : State) (buffer : BlockBuffer) : Bytes :=
  let pos := buffer.pos
  let block := (buffer.padWithZeros 64).1.set pos 0x80
  let m := readM block
  let s := perm (xorW (addM s m)) m
  let s := (List.range 3).foldl (fun s _ => perm (xorW (swapBC s)) m) s
  bytesOfWordsLE s.b.toList

/-- `serialize`, core_api.rs:267-291 -/
def serialize (s : State) : Bytes :=
  bytesOfWordsLE s.a.toList ++ bytesOfWordsLE s.b.toList ++ bytesOfWordsLE s.c.toList ++ leBytes 8 s.w.toNat

/-- `deserialize`, core_api.rs:293-317 -/
def deserialize (raw : Bytes) : Option State :=
  if raw.length = 184 then
    some ⟨Arr.ofFn 12 (wordLE 32 (raw.take 48)), Arr.ofFn 16 (wordLE 32 ((raw.drop 48).take 64)),
      Arr.ofFn 16 (wordLE 32 ((raw.drop 112).take 64)), BitVec.ofNat 64 (ofLE (raw.drop 176))⟩
  else none

/-- `VariableOutputCore for ShabalVarCore`: `Eager` :169, block size :165, output size :188, `TRUNC_SIDE = Right` :192. -/
def varCore : VarCore State where
  kind := .eager
  bs := 64
  outLen := 64
  new := new
  updateBlocks := updateBlocks
  finalizeFull := finalizeFull
  side := .right
  serialize := serialize
  deserialize := deserialize
  serLen := 184

/-- `Shabal192` … `Shabal512`, lib.rs:24-32 -/
def core (outSize : Nat) : Option (Core State Bytes) := varCore.ct outSize

end Hashes.Shabal
