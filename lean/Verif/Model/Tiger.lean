import Verif.Base.Vec
import Verif.Model.CoreWrapper
import Verif.Model.TigerTables
/- Model of Tiger and Tiger2: /repo/tiger/src/{lib.rs,compress.rs,tables.rs}. The lookup tables are a parameter `T` of
the compression function; the instances use the contents of tables.bin. -/
namespace Hashes.Tiger

/-- `State = [u64; 3]`, lib.rs:31 -/
@[ext] structure V3 where
  x0 : W64
  x1 : W64
  x2 : W64
deriving DecidableEq

/-- Elements in index order. -/
def V3.toList (v : V3) : List W64 := [v.x0, v.x1, v.x2]

/-- `S0`, lib.rs:33-37 -/
def S0 : V3 := ⟨0x0123456789ABCDEF, 0xFEDCBA9876543210, 0xF096A5B4C3B2E187⟩

/-- `TABLES[i][usize::from(c2[j])]` with `c2 = c.to_le_bytes()`, compress.rs:7-15 -/
def look (T : List (List W64)) (i : Nat) (c2 : Bytes) (j : Nat) : W64 := (T.getD i []).getD (c2.getD j 0).toNat 0

/-- `round`, compress.rs:5-18; the arguments are the three `&mut` registers. -/
def round (T : List (List W64)) (a b c x mul : W64) : V3 :=
  let c := c ^^^ x
  let c2 := leBytes 8 c.toNat
  let a2 := look T 0 c2 0 ^^^ look T 1 c2 2 ^^^ look T 2 c2 4 ^^^ look T 3 c2 6
  let b2 := look T 3 c2 1 ^^^ look T 2 c2 3 ^^^ look T 1 c2 5 ^^^ look T 0 c2 7
  ⟨a - a2, (b + b2) * mul, c⟩

/-- `pass`, compress.rs:20-30 -/
def pass (T : List (List W64)) (a b c : W64) (x : V8 W64) (mul : W64) : V3 :=
  let r := round T a b c x.x0 mul; let a := r.x0; let b := r.x1; let c := r.x2
  let r := round T b c a x.x1 mul; let b := r.x0; let c := r.x1; let a := r.x2
  let r := round T c a b x.x2 mul; let c := r.x0; let a := r.x1; let b := r.x2
  let r := round T a b c x.x3 mul; let a := r.x0; let b := r.x1; let c := r.x2
  let r := round T b c a x.x4 mul; let b := r.x0; let c := r.x1; let a := r.x2
  let r := round T c a b x.x5 mul; let c := r.x0; let a := r.x1; let b := r.x2
  let r := round T a b c x.x6 mul; let a := r.x0; let b := r.x1; let c := r.x2
  let r := round T b c a x.x7 mul; let b := r.x0; let c := r.x1; let a := r.x2
  ⟨a, b, c⟩

/-- `key_schedule`, compress.rs:32-50 -/
def keySchedule (x : V8 W64) : V8 W64 :=
  let x := { x with x0 := x.x0 - (x.x7 ^^^ 0xA5A5A5A5A5A5A5A5) }
  let x := { x with x1 := x.x1 ^^^ x.x0 }
  let x := { x with x2 := x.x2 + x.x1 }
  let x := { x with x3 := x.x3 - (x.x2 ^^^ ((~~~x.x1) <<< 19)) }
  let x := { x with x4 := x.x4 ^^^ x.x3 }
  let x := { x with x5 := x.x5 + x.x4 }
  let x := { x with x6 := x.x6 - (x.x5 ^^^ ((~~~x.x4) >>> 23)) }
  let x := { x with x7 := x.x7 ^^^ x.x6 }
  let x := { x with x0 := x.x0 + x.x7 }
  let x := { x with x1 := x.x1 - (x.x0 ^^^ ((~~~x.x7) <<< 19)) }
  let x := { x with x2 := x.x2 ^^^ x.x1 }
  let x := { x with x3 := x.x3 + x.x2 }
  let x := { x with x4 := x.x4 - (x.x3 ^^^ ((~~~x.x2) >>> 23)) }
  let x := { x with x5 := x.x5 ^^^ x.x4 }
  let x := { x with x6 := x.x6 + x.x5 }
  { x with x7 := x.x7 - (x.x6 ^^^ 0x0123456789ABCDEF) }

/-- `compress`, compress.rs:52-68 -/
def compress (T : List (List W64)) (state : V3) (rawBlock : Bytes) : V3 :=
  let block := V8.ofFn (wordLE 64 rawBlock)
  let a := state.x0; let b := state.x1; let c := state.x2
  let r := pass T a b c block 5; let a := r.x0; let b := r.x1; let c := r.x2
  let block := keySchedule block
  let r := pass T c a b block 7; let c := r.x0; let a := r.x1; let b := r.x2
  let block := keySchedule block
  let r := pass T b c a block 9; let b := r.x0; let c := r.x1; let a := r.x2
  ⟨state.x0 ^^^ a, b - state.x1, c + state.x2⟩

/-- `TigerCore`, lib.rs:41-44 -/
@[ext] structure State where
  blockLen : W64
  state : V3
deriving DecidableEq

/-- `default()`, lib.rs:98-103 -/
def init : State := ⟨0, S0⟩

/-- `update_blocks`, lib.rs:67-72 -/
def updateBlocks (T : List (List W64)) (s : State) (blks : List Bytes) : State :=
  ⟨s.blockLen + BitVec.ofNat 64 blks.length, blks.foldl (compress T) s.state⟩

/-- `finalize_fixed_core`, lib.rs:77-93 -/
def finalize (T : List (List W64)) (ver2 : Bool) (s : State) (buffer : BlockBuffer) : Bytes :=
  let pos : W64 := BitVec.ofNat 64 buffer.pos
  let bitLen : W64 := 8 * (pos + 64 * s.blockLen)
  let st :=
    if ver2 then buffer.len64PaddingLE 64 bitLen (compress T) s.state
    else buffer.digestPad 64 1 (leBytes 8 bitLen.toNat) (compress T) s.state
  bytesOfWordsLE st.toList

/-- `serialize`, lib.rs:116-125 -/
def serialize (s : State) : Bytes := bytesOfWordsLE s.state.toList ++ leBytes 8 s.blockLen.toNat

/-- `deserialize`, lib.rs:127-140 -/
def deserialize (raw : Bytes) : Option State :=
  if raw.length = 32 then
    some ⟨BitVec.ofNat 64 (ofLE (raw.drop 24)), ⟨wordLE 64 raw 0, wordLE 64 raw 1, wordLE 64 raw 2⟩⟩
  else none

/-- `CoreWrapper<TigerCore<VER2>>`, lib.rs:47, :49 (block size :54, `Eager` :58, reset :106-110); `T` are the tables. -/
def core (T : List (List W64)) (ver2 : Bool) : Core State Bytes where
  kind := .eager
  bs := 64
  init := init
  updateBlocks := updateBlocks T
  finalize := finalize T ver2
  reset := fun _ => init
  serialize := serialize
  deserialize := deserialize
  serLen := 32

/-- `Tiger`, lib.rs:47 -/
def tiger : Core State Bytes := core TABLES false
/-- `Tiger2`, lib.rs:49 -/
def tiger2 : Core State Bytes := core TABLES true

end Hashes.Tiger
