import Verif.Base.Vec
import Verif.Model.CoreWrapper
/- Model of SM3: /repo/sm3/src/{lib,compress,consts}.rs. -/
namespace Hashes.Sm3

/-- `T32`, consts.rs:3-12 -/
def T32 : List W32 := [
    0x79cc4519, 0xf3988a32, 0xe7311465, 0xce6228cb, 0x9cc45197, 0x3988a32f, 0x7311465e, 0xe6228cbc,
    0xcc451979, 0x988a32f3, 0x311465e7, 0x6228cbce, 0xc451979c, 0x88a32f39, 0x11465e73, 0x228cbce6,
    0x9d8a7a87, 0x3b14f50f, 0x7629ea1e, 0xec53d43c, 0xd8a7a879, 0xb14f50f3, 0x629ea1e7, 0xc53d43ce,
    0x8a7a879d, 0x14f50f3b, 0x29ea1e76, 0x53d43cec, 0xa7a879d8, 0x4f50f3b1, 0x9ea1e762, 0x3d43cec5,
    0x7a879d8a, 0xf50f3b14, 0xea1e7629, 0xd43cec53, 0xa879d8a7, 0x50f3b14f, 0xa1e7629e, 0x43cec53d,
    0x879d8a7a, 0x0f3b14f5, 0x1e7629ea, 0x3cec53d4, 0x79d8a7a8, 0xf3b14f50, 0xe7629ea1, 0xcec53d43,
    0x9d8a7a87, 0x3b14f50f, 0x7629ea1e, 0xec53d43c, 0xd8a7a879, 0xb14f50f3, 0x629ea1e7, 0xc53d43ce,
    0x8a7a879d, 0x14f50f3b, 0x29ea1e76, 0x53d43cec, 0xa7a879d8, 0x4f50f3b1, 0x9ea1e762, 0x3d43cec5]

/-- `H0`, consts.rs:14-16 -/
def H0 : V8 W32 :=
  ⟨0x7380166f, 0x4914b2b9, 0x172442d7, 0xda8a0600, 0xa96f30bc, 0x163138aa, 0xe38dee4d, 0xb0fb0e4e⟩

/-- compress.rs:5-7 -/
def ff1 (x y z : W32) : W32 := x ^^^ y ^^^ z
/-- compress.rs:10-12 -/
def ff2 (x y z : W32) : W32 := (x &&& y) ||| (x &&& z) ||| (y &&& z)
/-- compress.rs:15-17 -/
def gg1 (x y z : W32) : W32 := x ^^^ y ^^^ z
/-- compress.rs:20-23: `(y ^ z) & x ^ z` (in Rust `&` binds tighter than `^`). -/
def gg2 (x y z : W32) : W32 := ((y ^^^ z) &&& x) ^^^ z
/-- compress.rs:26-28 -/
def p0 (x : W32) : W32 := x ^^^ x.rotateLeft 9 ^^^ x.rotateLeft 17
/-- compress.rs:31-33 -/
def p1 (x : W32) : W32 := x ^^^ x.rotateLeft 15 ^^^ x.rotateLeft 23
/-- compress.rs:36-38; `x` is the 16-word ring. -/
def w1 (x : List W32) (i : Nat) : W32 := x.getD (i &&& 0x0f) 0
/-- compress.rs:41-46: returns the word and the updated ring. -/
def w2 (x : List W32) (i : Nat) : W32 × List W32 :=
  let tw := w1 x i ^^^ w1 x (i - 9) ^^^ (w1 x (i - 3)).rotateLeft 15
  let tw := p1 tw ^^^ (w1 x (i - 13)).rotateLeft 7 ^^^ w1 x (i - 6)
  (tw, x.set (i &&& 0x0f) tw)
/-- compress.rs:49-51 -/
def t (i : Nat) : W32 := T32.getD i 0

/-- `sm3_round1`, compress.rs:53-82 -/
def round1 (a b c d e f g h t w1 w2 : W32) : V8 W32 :=
  let ss1 := (a.rotateLeft 12 + e + t).rotateLeft 7
  let ss2 := ss1 ^^^ a.rotateLeft 12
  let d := d + ff1 a b c + ss2 + (w1 ^^^ w2)
  let h := h + gg1 e f g + ss1 + w1
  let b := b.rotateLeft 9
  let f := f.rotateLeft 19
  let h := p0 h
  ⟨a, b, c, d, e, f, g, h⟩

/-- `sm3_round2`, compress.rs:84-113 -/
def round2 (a b c d e f g h t w1 w2 : W32) : V8 W32 :=
  let ss1 := (a.rotateLeft 12 + e + t).rotateLeft 7
  let ss2 := ss1 ^^^ a.rotateLeft 12
  let d := d + ff2 a b c + ss2 + (w1 ^^^ w2)
  let h := h + gg2 e f g + ss1 + w1
  let b := b.rotateLeft 9
  let f := f.rotateLeft 19
  let h := p0 h
  ⟨a, b, c, d, e, f, g, h⟩

/-- Which macro (`R1!`/`R2!`) a line invokes. -/
inductive Mac | r1 | r2
deriving DecidableEq
/-- Which accessor (`w1(&x, i)` / `w2(&mut x, i)`) supplies the last argument. -/
inductive Acc | w1 | w2
deriving DecidableEq

/-- One macro line of `compress_u32`: the register identifiers (a=0 .. h=7) in argument order, the index
given to `t`, the index given to `w1`, accessor and index of the last argument. -/
structure Line where
  mac : Mac
  a : Nat
  b : Nat
  c : Nat
  d : Nat
  e : Nat
  f : Nat
  g : Nat
  h : Nat
  t : Nat
  w : Nat
  acc : Acc
  w' : Nat
deriving DecidableEq

/-- The 64 macro lines, compress.rs:163-226. -/
def lines : List Line := [
  ⟨.r1, 0, 1, 2, 3, 4, 5, 6, 7, 0, 0, .w1, 4⟩,
  ⟨.r1, 3, 0, 1, 2, 7, 4, 5, 6, 1, 1, .w1, 5⟩,
  ⟨.r1, 2, 3, 0, 1, 6, 7, 4, 5, 2, 2, .w1, 6⟩,
  ⟨.r1, 1, 2, 3, 0, 5, 6, 7, 4, 3, 3, .w1, 7⟩,
  ⟨.r1, 0, 1, 2, 3, 4, 5, 6, 7, 4, 4, .w1, 8⟩,
  ⟨.r1, 3, 0, 1, 2, 7, 4, 5, 6, 5, 5, .w1, 9⟩,
  ⟨.r1, 2, 3, 0, 1, 6, 7, 4, 5, 6, 6, .w1, 10⟩,
  ⟨.r1, 1, 2, 3, 0, 5, 6, 7, 4, 7, 7, .w1, 11⟩,
  ⟨.r1, 0, 1, 2, 3, 4, 5, 6, 7, 8, 8, .w1, 12⟩,
  ⟨.r1, 3, 0, 1, 2, 7, 4, 5, 6, 9, 9, .w1, 13⟩,
  ⟨.r1, 2, 3, 0, 1, 6, 7, 4, 5, 10, 10, .w1, 14⟩,
  ⟨.r1, 1, 2, 3, 0, 5, 6, 7, 4, 11, 11, .w1, 15⟩,
  ⟨.r1, 0, 1, 2, 3, 4, 5, 6, 7, 12, 12, .w2, 16⟩,
  ⟨.r1, 3, 0, 1, 2, 7, 4, 5, 6, 13, 13, .w2, 17⟩,
  ⟨.r1, 2, 3, 0, 1, 6, 7, 4, 5, 14, 14, .w2, 18⟩,
  ⟨.r1, 1, 2, 3, 0, 5, 6, 7, 4, 15, 15, .w2, 19⟩,
  ⟨.r2, 0, 1, 2, 3, 4, 5, 6, 7, 16, 16, .w2, 20⟩,
  ⟨.r2, 3, 0, 1, 2, 7, 4, 5, 6, 17, 17, .w2, 21⟩,
  ⟨.r2, 2, 3, 0, 1, 6, 7, 4, 5, 18, 18, .w2, 22⟩,
  ⟨.r2, 1, 2, 3, 0, 5, 6, 7, 4, 19, 19, .w2, 23⟩,
  ⟨.r2, 0, 1, 2, 3, 4, 5, 6, 7, 20, 20, .w2, 24⟩,
  ⟨.r2, 3, 0, 1, 2, 7, 4, 5, 6, 21, 21, .w2, 25⟩,
  ⟨.r2, 2, 3, 0, 1, 6, 7, 4, 5, 22, 22, .w2, 26⟩,
  ⟨.r2, 1, 2, 3, 0, 5, 6, 7, 4, 23, 23, .w2, 27⟩,
  ⟨.r2, 0, 1, 2, 3, 4, 5, 6, 7, 24, 24, .w2, 28⟩,
  ⟨.r2, 3, 0, 1, 2, 7, 4, 5, 6, 25, 25, .w2, 29⟩,
  ⟨.r2, 2, 3, 0, 1, 6, 7, 4, 5, 26, 26, .w2, 30⟩,
  ⟨.r2, 1, 2, 3, 0, 5, 6, 7, 4, 27, 27, .w2, 31⟩,
  ⟨.r2, 0, 1, 2, 3, 4, 5, 6, 7, 28, 28, .w2, 32⟩,
  ⟨.r2, 3, 0, 1, 2, 7, 4, 5, 6, 29, 29, .w2, 33⟩,
  ⟨.r2, 2, 3, 0, 1, 6, 7, 4, 5, 30, 30, .w2, 34⟩,
  ⟨.r2, 1, 2, 3, 0, 5, 6, 7, 4, 31, 31, .w2, 35⟩,
  ⟨.r2, 0, 1, 2, 3, 4, 5, 6, 7, 32, 32, .w2, 36⟩,
  ⟨.r2, 3, 0, 1, 2, 7, 4, 5, 6, 33, 33, .w2, 37⟩,
  ⟨.r2, 2, 3, 0, 1, 6, 7, 4, 5, 34, 34, .w2, 38⟩,
  ⟨.r2, 1, 2, 3, 0, 5, 6, 7, 4, 35, 35, .w2, 39⟩,
  ⟨.r2, 0, 1, 2, 3, 4, 5, 6, 7, 36, 36, .w2, 40⟩,
  ⟨.r2, 3, 0, 1, 2, 7, 4, 5, 6, 37, 37, .w2, 41⟩,
  ⟨.r2, 2, 3, 0, 1, 6, 7, 4, 5, 38, 38, .w2, 42⟩,
  ⟨.r2, 1, 2, 3, 0, 5, 6, 7, 4, 39, 39, .w2, 43⟩,
  ⟨.r2, 0, 1, 2, 3, 4, 5, 6, 7, 40, 40, .w2, 44⟩,
  ⟨.r2, 3, 0, 1, 2, 7, 4, 5, 6, 41, 41, .w2, 45⟩,
  ⟨.r2, 2, 3, 0, 1, 6, 7, 4, 5, 42, 42, .w2, 46⟩,
  ⟨.r2, 1, 2, 3, 0, 5, 6, 7, 4, 43, 43, .w2, 47⟩,
  ⟨.r2, 0, 1, 2, 3, 4, 5, 6, 7, 44, 44, .w2, 48⟩,
  ⟨.r2, 3, 0, 1, 2, 7, 4, 5, 6, 45, 45, .w2, 49⟩,
  ⟨.r2, 2, 3, 0, 1, 6, 7, 4, 5, 46, 46, .w2, 50⟩,
  ⟨.r2, 1, 2, 3, 0, 5, 6, 7, 4, 47, 47, .w2, 51⟩,
  ⟨.r2, 0, 1, 2, 3, 4, 5, 6, 7, 48, 48, .w2, 52⟩,
  ⟨.r2, 3, 0, 1, 2, 7, 4, 5, 6, 49, 49, .w2, 53⟩,
  ⟨.r2, 2, 3, 0, 1, 6, 7, 4, 5, 50, 50, .w2, 54⟩,
  ⟨.r2, 1, 2, 3, 0, 5, 6, 7, 4, 51, 51, .w2, 55⟩,
  ⟨.r2, 0, 1, 2, 3, 4, 5, 6, 7, 52, 52, .w2, 56⟩,
  ⟨.r2, 3, 0, 1, 2, 7, 4, 5, 6, 53, 53, .w2, 57⟩,
  ⟨.r2, 2, 3, 0, 1, 6, 7, 4, 5, 54, 54, .w2, 58⟩,
  ⟨.r2, 1, 2, 3, 0, 5, 6, 7, 4, 55, 55, .w2, 59⟩,
  ⟨.r2, 0, 1, 2, 3, 4, 5, 6, 7, 56, 56, .w2, 60⟩,
  ⟨.r2, 3, 0, 1, 2, 7, 4, 5, 6, 57, 57, .w2, 61⟩,
  ⟨.r2, 2, 3, 0, 1, 6, 7, 4, 5, 58, 58, .w2, 62⟩,
  ⟨.r2, 1, 2, 3, 0, 5, 6, 7, 4, 59, 59, .w2, 63⟩,
  ⟨.r2, 0, 1, 2, 3, 4, 5, 6, 7, 60, 60, .w2, 64⟩,
  ⟨.r2, 3, 0, 1, 2, 7, 4, 5, 6, 61, 61, .w2, 65⟩,
  ⟨.r2, 2, 3, 0, 1, 6, 7, 4, 5, 62, 62, .w2, 66⟩,
  ⟨.r2, 1, 2, 3, 0, 5, 6, 7, 4, 63, 63, .w2, 67⟩]

/-- `R1!`/`R2!`, compress.rs:115-149: call the round function on the named registers, then assign the eight
registers in order. -/
def call (rf : W32 → W32 → W32 → W32 → W32 → W32 → W32 → W32 → V8 W32) (v : V8 W32) (l : Line) : V8 W32 :=
  let out := rf (v.get l.a) (v.get l.b) (v.get l.c) (v.get l.d) (v.get l.e) (v.get l.f) (v.get l.g) (v.get l.h)
  (((((((v.set l.a out.x0).set l.b out.x1).set l.c out.x2).set l.d out.x3).set l.e out.x4).set l.f out.x5).set l.g
    out.x6).set l.h out.x7

/-- `sm3_round1` or `sm3_round2`. -/
def roundFn (m : Mac) (a b c d e f g h t w1 w2 : W32) : V8 W32 :=
  match m with
  | .r1 => round1 a b c d e f g h t w1 w2
  | .r2 => round2 a b c d e f g h t w1 w2

/-- The last macro argument, `w1(&x, i)` or `w2(&mut x, i)`: the word and the ring afterwards. -/
def fetch (a : Acc) (x : List W32) (i : Nat) : W32 × List W32 :=
  match a with
  | .w1 => (w1 x i, x)
  | .w2 => w2 x i

/-- Execution of one line: arguments are evaluated left to right (so `w1` before `w2`). -/
def step (s : V8 W32 × List W32) (l : Line) : V8 W32 × List W32 :=
  let w := w1 s.2 l.w
  let r := fetch l.acc s.2 l.w'
  (call (fun a b c d e f g h => roundFn l.mac a b c d e f g h (t l.t) w r.1) s.1 l, r.2)

/-- `compress_u32`, compress.rs:151-236 -/
def compressU32 (state : V8 W32) (block : List W32) : V8 W32 :=
  let r := (lines.foldl step (state, block)).1
  state.zip (· ^^^ ·) r

/-- Loop body of `compress`, compress.rs:239-245 -/
def compress (state : V8 W32) (block : Bytes) : V8 W32 :=
  compressU32 state ((List.range 16).map (wordBE 32 block))

/-- `Sm3Core`, lib.rs:35-38 -/
@[ext] structure State where
  blockLen : W64
  h : V8 W32
deriving DecidableEq

/-- `default()`, lib.rs:79-87 -/
def init : State := ⟨0, H0⟩

/-- `update_blocks`, lib.rs:57-63 -/
def updateBlocks (s : State) (blks : List Bytes) : State :=
  ⟨s.blockLen + BitVec.ofNat 64 blks.length, blks.foldl compress s.h⟩

/-- `finalize_fixed_core`, lib.rs:65-77 -/
def finalize (s : State) (buffer : BlockBuffer) : Bytes :=
  let bitLen : W64 := 8 * (BitVec.ofNat 64 buffer.pos + 64 * s.blockLen)
  let h := buffer.len64PaddingBE 64 bitLen compress s.h
  bytesOfWordsBE h.toList

/-- `serialize`, lib.rs:124-133 -/
def serialize (s : State) : Bytes := bytesOfWordsLE s.h.toList ++ leBytes 8 s.blockLen.toNat

/-- `deserialize`, lib.rs:135-148 -/
def deserialize (raw : Bytes) : Option State :=
  if raw.length = 40 then
    some ⟨BitVec.ofNat 64 (ofLE (raw.drop 32)), V8.ofFn (wordLE 32 raw)⟩
  else none

/-- `Sm3 = CoreWrapper<Sm3Core>`, lib.rs:41 (block size :46, `Eager` :50, reset :89-94, `U40` :122). -/
def sm3 : Core State Bytes where
  kind := .eager
  bs := 64
  init := init
  updateBlocks := updateBlocks
  finalize := finalize
  reset := fun _ => init
  serialize := serialize
  deserialize := deserialize
  serLen := 40

end Hashes.Sm3
