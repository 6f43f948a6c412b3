import Verif.Base.Vec
import Verif.Model.CoreWrapper
/- Model of MD4: /repo/md4/src/lib.rs. -/
namespace Hashes.Md4

/-- `S0`, lib.rs:31-36 -/
def S0 : V4 W32 := ⟨0x67452301, 0xEFCDAB89, 0x98BADCFE, 0x10325476⟩
/-- `K1`, lib.rs:37 -/
def K1 : W32 := 0x5A827999
/-- `K2`, lib.rs:38 -/
def K2 : W32 := 0x6ED9EBA1

/-- `f`, lib.rs:140-142 -/
def f (x y z : W32) : W32 := z ^^^ (x &&& (y ^^^ z))
/-- `g`, lib.rs:144-146 -/
def g (x y z : W32) : W32 := (x &&& y) ||| (x &&& z) ||| (y &&& z)
/-- `h`, lib.rs:148-150 -/
def h (x y z : W32) : W32 := x ^^^ y ^^^ z
/-- `op`, lib.rs:152-158 -/
def op (f : W32 → W32 → W32 → W32) (a b c d k : W32) (s : Nat) : W32 := (a + f b c d + k).rotateLeft s

/-- Body of the `round 1` loop, lib.rs:172-177; state is `⟨a, b, c, d⟩`. -/
def body1 (data : Nat → W32) (s : V4 W32) (i : Nat) : V4 W32 :=
  let a := s.x0; let b := s.x1; let c := s.x2; let d := s.x3
  let a := op f a b c d (data i) 3
  let d := op f d a b c (data (i + 1)) 7
  let c := op f c d a b (data (i + 2)) 11
  let b := op f b c d a (data (i + 3)) 19
  ⟨a, b, c, d⟩

/-- Body of the `round 2` loop, lib.rs:180-185 -/
def body2 (data : Nat → W32) (s : V4 W32) (i : Nat) : V4 W32 :=
  let a := s.x0; let b := s.x1; let c := s.x2; let d := s.x3
  let a := op g a b c d (data i + K1) 3
  let d := op g d a b c (data (i + 4) + K1) 5
  let c := op g c d a b (data (i + 8) + K1) 9
  let b := op g b c d a (data (i + 12) + K1) 13
  ⟨a, b, c, d⟩

/-- Body of the `round 3` loop, lib.rs:188-193 -/
def body3 (data : Nat → W32) (s : V4 W32) (i : Nat) : V4 W32 :=
  let a := s.x0; let b := s.x1; let c := s.x2; let d := s.x3
  let a := op h a b c d (data i + K2) 3
  let d := op h d a b c (data (i + 8) + K2) 9
  let c := op h c d a b (data (i + 4) + K2) 11
  let b := op h b c d a (data (i + 12) + K2) 15
  ⟨a, b, c, d⟩

/-- `compress`, lib.rs:139-199 -/
def compress (state : V4 W32) (input : Bytes) : V4 W32 :=
  let data := wordLE 32 input
  let s := [0, 4, 8, 12].foldl (body1 data) state
  let s := [0, 1, 2, 3].foldl (body2 data) s
  let s := [0, 2, 1, 3].foldl (body3 data) s
  ⟨state.x0 + s.x0, state.x1 + s.x1, state.x2 + s.x2, state.x3 + s.x3⟩

/-- `Md4Core`, lib.rs:42-45 -/
@[ext] structure State where
  blockLen : W64
  state : V4 W32
deriving DecidableEq

/-- `default()`, lib.rs:92-100 -/
def init : State := ⟨0, S0⟩

/-- `update_blocks`, lib.rs:68-73 -/
def updateBlocks (s : State) (blks : List Bytes) : State :=
  ⟨s.blockLen + BitVec.ofNat 64 blks.length, blks.foldl compress s.state⟩

/-- `finalize_fixed_core`, lib.rs:78-89 -/
def finalize (s : State) (buffer : BlockBuffer) : Bytes :=
  let tailLen : W64 := BitVec.ofNat 64 buffer.pos
  let bytesLen := 64 * s.blockLen + tailLen
  let bitsLen := 8 * bytesLen
  let st := buffer.len64PaddingLE 64 bitsLen compress s.state
  bytesOfWordsLE st.toList

/-- `serialize`, lib.rs:204-213 -/
def serialize (s : State) : Bytes := bytesOfWordsLE s.state.toList ++ leBytes 8 s.blockLen.toNat

/-- `deserialize`, lib.rs:215-228 -/
def deserialize (raw : Bytes) : Option State :=
  if raw.length = 24 then
    some ⟨BitVec.ofNat 64 (ofLE (raw.drop 16)), V4.ofFn (wordLE 32 raw)⟩
  else none

/-- `Md4 = CoreWrapper<Md4Core>`, lib.rs:48 (block size :55, `Eager` :59, reset :102-107). -/
def md4 : Core State Bytes where
  kind := .eager
  bs := 64
  init := init
  updateBlocks := updateBlocks
  finalize := finalize
  reset := fun _ => init
  serialize := serialize
  deserialize := deserialize
  serLen := 24

end Hashes.Md4
