import Verif.Base.Vec
import Verif.Model.VarCore
import Verif.Model.JhTables
/- Model of JH: /repo/jh/src/{lib.rs,compressor.rs,consts.rs}, with the 128-bit vector operations of the external crate
ppv-lite86 (`u128x1`, `u128x2`: bitwise operations, `andnot(a, b) = !a & b`, `swapN`, `vzip`/`extract`) written out on 128-bit
words of a little-endian machine. -/
namespace Hashes.Jh

/-- `M::u128x1::swapN` for `N = 2^j`: exchange neighbouring groups of `2^j` bits. -/
def swapMask (j : Nat) : W128 :=
  [0x55555555555555555555555555555555, 0x33333333333333333333333333333333, 0x0f0f0f0f0f0f0f0f0f0f0f0f0f0f0f0f,
   0x00ff00ff00ff00ff00ff00ff00ff00ff, 0x0000ffff0000ffff0000ffff0000ffff, 0x00000000ffffffff00000000ffffffff,
   0x0000000000000000ffffffffffffffff].getD j 0

/-- `swap1` … `swap64` (ppv-lite86): `((x & m) << k) | ((x >> k) & m)` -/
def swap (j : Nat) (x : W128) : W128 := ((x &&& swapMask j) <<< 2 ^ j) ||| ((x >>> 2 ^ j) &&& swapMask j)

/-- `andnot` (ppv-lite86): `!a & b` -/
def andnot (a b : W128) : W128 := ~~~a &&& b

/-- `ss`, compressor.rs:61-76, for one half of each `u128x2` (the operations act on the two halves independently);
`m.0, m.1, m.2, m.3` and the half `k` of the round constant. -/
def ssHalf (m0 m1 m2 m3 k : W128) : W128 × W128 × W128 × W128 :=
  let m3 := ~~~m3
  let m0 := m0 ^^^ andnot m2 k
  let k := k ^^^ (m0 &&& m1)
  let m0 := m0 ^^^ (m3 &&& m2)
  let m3 := m3 ^^^ andnot m1 m2
  let m1 := m1 ^^^ (m0 &&& m2)
  let m2 := m2 ^^^ andnot m3 m0
  let m0 := m0 ^^^ (m1 ||| m3)
  let m3 := m3 ^^^ (m1 &&& m2)
  let m2 := m2 ^^^ k
  let m1 := m1 ^^^ (k &&& m0)
  (m0, m1, m2, m3)

/-- `ss`, compressor.rs:61-76, with `zip`/`unzip` :35-56: half 0 holds words 0, 2, 4, 6 and half 1 words 1, 3, 5, 7. -/
def ss (y : V8 W128) (k0 k1 : W128) : V8 W128 :=
  let a := ssHalf y.x0 y.x2 y.x4 y.x6 k0
  let b := ssHalf y.x1 y.x3 y.x5 y.x7 k1
  ⟨a.1, b.1, a.2.1, b.2.1, a.2.2.1, b.2.2.1, a.2.2.2, b.2.2.2⟩

/-- `l`, compressor.rs:79-89 -/
def l (y : V8 W128) : V8 W128 :=
  let y1 := y.x1 ^^^ y.x2
  let y3 := y.x3 ^^^ y.x4
  let y5 := y.x5 ^^^ (y.x6 ^^^ y.x0)
  let y7 := y.x7 ^^^ y.x0
  let y0 := y.x0 ^^^ y3
  let y2 := y.x2 ^^^ y5
  let y4 := y.x4 ^^^ (y7 ^^^ y1)
  let y6 := y.x6 ^^^ y1
  ⟨y0, y1, y2, y3, y4, y5, y6, y7⟩

/-- Half `b` of the round constant `r`: bytes `16 b .. 16 b + 16`. -/
def rcHalf (r b : Nat) : W128 := wordLE 128 (beBytes 32 (rcNat.getD r 0)) b

/-- One step of the loop compressor.rs:117-133: constant number `r = 7 * chunk + j`. -/
def round (y : V8 W128) (r : Nat) : V8 W128 :=
  let y := ss y (rcHalf r 0) (rcHalf r 1)
  let y := l y
  let f := swap (r % 7)
  ⟨y.x0, f y.x1, y.x2, f y.x3, y.x4, f y.x5, y.x6, f y.x7⟩

/-- `f8_impl`, compressor.rs:98-150 -/
def f8 (y : V8 W128) (data : Bytes) : V8 W128 :=
  let d := wordLE 128 data
  let y : V8 W128 := ⟨y.x0 ^^^ d 0, y.x1 ^^^ d 1, y.x2 ^^^ d 2, y.x3 ^^^ d 3, y.x4, y.x5, y.x6, y.x7⟩
  let y := (List.range 42).foldl round y
  ⟨y.x0, y.x1, y.x2, y.x3, y.x4 ^^^ d 0, y.x5 ^^^ d 1, y.x6 ^^^ d 2, y.x7 ^^^ d 3⟩

/-- `JhCore`, lib.rs:36-39; `Compressor` (a union of `[vec128_storage; 8]` and `[u8; 128]`, compressor.rs:152-155) as eight
128-bit words. -/
@[ext] structure State where
  state : V8 W128
  blockLen : W64
deriving DecidableEq

/-- `Compressor::new`, compressor.rs:159-161 -/
def compressorNew (bytes : Bytes) : V8 W128 := V8.ofFn (wordLE 128 bytes)

/-- `update_blocks`, lib.rs:66-71 -/
def updateBlocks (s : State) (blks : List Bytes) : State :=
  ⟨blks.foldl f8 s.state, s.blockLen + BitVec.ofNat 64 blks.length⟩

/-- `new(output_size)`, lib.rs:78-90 -/
def new (outputSize : Nat) : Option State :=
  match outputSize with
  | 28 => some ⟨compressorNew (beBytes 128 h224Nat), 0⟩
  | 32 => some ⟨compressorNew (beBytes 128 h256Nat), 0⟩
  | 48 => some ⟨compressorNew (beBytes 128 h384Nat), 0⟩
  | 64 => some ⟨compressorNew (beBytes 128 h512Nat), 0⟩
  | _ => none

/-- `finalize_variable_core`, lib.rs:93-106 -/
def finalizeFull (s : State) (buffer : BlockBuffer) : Bytes :=
  let bitLen := (s.blockLen * 64 + BitVec.ofNat 64 buffer.pos) * 8
  let state :=
    if buffer.pos = 0 then
      BlockBuffer.digestPad 64 buffer 0x80 (beBytes 8 bitLen.toNat) f8 s.state
    else
      let state := BlockBuffer.digestPad 64 buffer 0x80 [] f8 s.state
      let buffer := (buffer.padWithZeros 64).2
      BlockBuffer.digestPad 64 buffer 0 (beBytes 8 bitLen.toNat) f8 state
  (bytesOfWordsLE state.toList).drop 64

/-- `VariableOutputCore for JhCore`: `Eager` :57, block size :53, output size :61, `TRUNC_SIDE = Right` :75.
`JhCore` has no `SerializableState`. -/
def varCore : VarCore State where
  kind := .eager
  bs := 64
  outLen := 64
  new := new
  updateBlocks := updateBlocks
  finalizeFull := finalizeFull
  side := .right
  serialize := fun _ => []
  deserialize := fun _ => none
  serLen := 0

/-- `Jh224` … `Jh512`, lib.rs:41-48 -/
def core (outSize : Nat) : Option (Core State Bytes) := varCore.ct outSize

end Hashes.Jh
