import Verif.Base.Vec
import Verif.Model.CoreWrapper
/-
Model of RIPEMD-128/160/256/320: /repo/ripemd/src/{lib,c128,c160,c256,c320}.rs.
The `process_block!` invocations are tables of `h_ordering / data_index / roll_shift` lines; they are
kept as tables here and the macro's repetition `$( round!(..) )*` is a left fold over them.
-/
namespace Hashes.Ripemd

/-- Boolean expressions passed as `$round` by `process_block!`: `x ^ y ^ z`
(c160.rs:54,104; c128.rs:43,83; c256.rs:62,108; c320.rs:69,127). -/
def bf1 (x y z : W32) : W32 := x ^^^ y ^^^ z
/-- `(x & y) | (!x & z)` (c160.rs:59,99; c128.rs:48,78; c256.rs:75,94; c320.rs:82,115). -/
def bf2 (x y z : W32) : W32 := (x &&& y) ||| (~~~x &&& z)
/-- `(x | !y) ^ z` (c160.rs:64,94; c128.rs:53,73; c256.rs:89,80; c320.rs:96,101). -/
def bf3 (x y z : W32) : W32 := (x ||| ~~~y) ^^^ z
/-- `(x & z) | (y & !z)` (c160.rs:69,89; c128.rs:58,68; c256.rs:102,67; c320.rs:109,87). -/
def bf4 (x y z : W32) : W32 := (x &&& z) ||| (y &&& ~~~z)
/-- `x ^ (y | !z)` (c160.rs:74,84; c320.rs:122,74). -/
def bf5 (x y z : W32) : W32 := x ^^^ (y ||| ~~~z)

/-! ### Hasher shared by the four sizes (`impl_ripemd!`, lib.rs:35-168) -/

/-- `struct $name`, lib.rs:44-47; `α` is the chaining value array. -/
structure State (α : Type) where
  h : α
  blockLen : W64
deriving DecidableEq

/-- The array type and compression function a module `$mod` supplies. -/
structure Mod (α : Type) where
  /-- `DIGEST_BUF_LEN` -/
  n : Nat
  toList : α → List W32
  ofFn : (Nat → W32) → α
  H0 : α
  compress : α → Bytes → α

variable {α : Type}

/-- `default()`, lib.rs:94-99 -/
def init (M : Mod α) : State α := ⟨M.H0, 0⟩

/-- `update_blocks`, lib.rs:69-75 (release-profile wrapping add, see DESIGN.md §2) -/
def updateBlocks (M : Mod α) (s : State α) (blks : List Bytes) : State α :=
  ⟨blks.foldl M.compress s.h, s.blockLen + BitVec.ofNat 64 blks.length⟩

/-- `finalize_fixed_core`, lib.rs:80-89 -/
def finalize (M : Mod α) (s : State α) (buffer : BlockBuffer) : Bytes :=
  let bitLen : W64 := 8 * (BitVec.ofNat 64 buffer.pos + 64 * s.blockLen)
  let h := buffer.len64PaddingLE 64 bitLen M.compress s.h
  bytesOfWordsLE (M.toList h)

/-- `serialize`, lib.rs:139-149 -/
def serialize (M : Mod α) (s : State α) : Bytes := bytesOfWordsLE (M.toList s.h) ++ leBytes 8 s.blockLen.toNat

/-- `deserialize`, lib.rs:151-165 -/
def deserialize (M : Mod α) (raw : Bytes) : Option (State α) :=
  if raw.length = 4 * M.n + 8 then
    some ⟨M.ofFn (wordLE 32 raw), BitVec.ofNat 64 (ofLE (raw.drop (4 * M.n)))⟩
  else none

/-- `$wrapped_name = CoreWrapper<$name>`, lib.rs:51 (block size :56, `Eager` :60, reset :104-106). -/
def core (M : Mod α) : Core (State α) Bytes where
  kind := .eager
  bs := 64
  init := init M
  updateBlocks := updateBlocks M
  finalize := finalize M
  reset := fun _ => init M
  serialize := serialize M
  deserialize := deserialize M
  serLen := 4 * M.n + 8

/-! ### Rounds on 5 registers -/

/-- One `h_ordering a, b, c, d, e; data_index; roll_shift` line. -/
structure Step5 where
  a : Nat
  b : Nat
  c : Nat
  d : Nat
  e : Nat
  idx : Nat
  bits : Nat
deriving DecidableEq

/-- `round!`, c160.rs:16-23, identical in c320.rs:22-29; `f` is the boolean expression in `bb[b], bb[c], bb[d]`, evaluated before the
assignments. -/
def round5 (w : Nat → W32) (add : W32) (f : W32 → W32 → W32 → W32) (bb : V5 W32) (s : Step5) : V5 W32 :=
  let bb := bb.set s.a (bb.get s.a + f (bb.get s.b) (bb.get s.c) (bb.get s.d) + w s.idx + add)
  let bb := bb.set s.a ((bb.get s.a).rotateLeft s.bits + bb.get s.e)
  bb.set s.c ((bb.get s.c).rotateLeft 10)

/-! ### Rounds on 4 registers -/

/-- One `h_ordering a, b, c, d; data_index; roll_shift` line. -/
structure Step4 where
  a : Nat
  b : Nat
  c : Nat
  d : Nat
  idx : Nat
  bits : Nat
deriving DecidableEq

/-- `round!`, c128.rs:10-16, identical in c256.rs:20-26; `f` is the boolean expression in `bb[b], bb[c], bb[d]`, evaluated before the
assignments. -/
def round4 (w : Nat → W32) (add : W32) (f : W32 → W32 → W32 → W32) (bb : V4 W32) (s : Step4) : V4 W32 :=
  let bb := bb.set s.a (bb.get s.a + f (bb.get s.b) (bb.get s.c) (bb.get s.d) + w s.idx + add)
  bb.set s.a ((bb.get s.a).rotateLeft s.bits)

/-! ### RIPEMD-160 -/
namespace C160

/-- `H0`, c160.rs:8-14 -/
def H0 : V5 W32 := ⟨0x67452301, 0xefcdab89, 0x98badcfe, 0x10325476, 0xc3d2e1f0⟩

/-- `round1` lines, c160.rs:123-138. -/
def r1 : List Step5 := [
  ⟨0, 1, 2, 3, 4, 0, 11⟩, ⟨4, 0, 1, 2, 3, 1, 14⟩, ⟨3, 4, 0, 1, 2, 2, 15⟩, ⟨2, 3, 4, 0, 1, 3, 12⟩,
  ⟨1, 2, 3, 4, 0, 4, 5⟩, ⟨0, 1, 2, 3, 4, 5, 8⟩, ⟨4, 0, 1, 2, 3, 6, 7⟩, ⟨3, 4, 0, 1, 2, 7, 9⟩,
  ⟨2, 3, 4, 0, 1, 8, 11⟩, ⟨1, 2, 3, 4, 0, 9, 13⟩, ⟨0, 1, 2, 3, 4, 10, 14⟩, ⟨4, 0, 1, 2, 3, 11, 15⟩,
  ⟨3, 4, 0, 1, 2, 12, 6⟩, ⟨2, 3, 4, 0, 1, 13, 7⟩, ⟨1, 2, 3, 4, 0, 14, 9⟩, ⟨0, 1, 2, 3, 4, 15, 8⟩]
/-- `round2` lines, c160.rs:141-156. -/
def r2 : List Step5 := [
  ⟨4, 0, 1, 2, 3, 7, 7⟩, ⟨3, 4, 0, 1, 2, 4, 6⟩, ⟨2, 3, 4, 0, 1, 13, 8⟩, ⟨1, 2, 3, 4, 0, 1, 13⟩,
  ⟨0, 1, 2, 3, 4, 10, 11⟩, ⟨4, 0, 1, 2, 3, 6, 9⟩, ⟨3, 4, 0, 1, 2, 15, 7⟩, ⟨2, 3, 4, 0, 1, 3, 15⟩,
  ⟨1, 2, 3, 4, 0, 12, 7⟩, ⟨0, 1, 2, 3, 4, 0, 12⟩, ⟨4, 0, 1, 2, 3, 9, 15⟩, ⟨3, 4, 0, 1, 2, 5, 9⟩,
  ⟨2, 3, 4, 0, 1, 2, 11⟩, ⟨1, 2, 3, 4, 0, 14, 7⟩, ⟨0, 1, 2, 3, 4, 11, 13⟩, ⟨4, 0, 1, 2, 3, 8, 12⟩]
/-- `round3` lines, c160.rs:159-174. -/
def r3 : List Step5 := [
  ⟨3, 4, 0, 1, 2, 3, 11⟩, ⟨2, 3, 4, 0, 1, 10, 13⟩, ⟨1, 2, 3, 4, 0, 14, 6⟩, ⟨0, 1, 2, 3, 4, 4, 7⟩,
  ⟨4, 0, 1, 2, 3, 9, 14⟩, ⟨3, 4, 0, 1, 2, 15, 9⟩, ⟨2, 3, 4, 0, 1, 8, 13⟩, ⟨1, 2, 3, 4, 0, 1, 15⟩,
  ⟨0, 1, 2, 3, 4, 2, 14⟩, ⟨4, 0, 1, 2, 3, 7, 8⟩, ⟨3, 4, 0, 1, 2, 0, 13⟩, ⟨2, 3, 4, 0, 1, 6, 6⟩,
  ⟨1, 2, 3, 4, 0, 13, 5⟩, ⟨0, 1, 2, 3, 4, 11, 12⟩, ⟨4, 0, 1, 2, 3, 5, 7⟩, ⟨3, 4, 0, 1, 2, 12, 5⟩]
/-- `round4` lines, c160.rs:177-192. -/
def r4 : List Step5 := [
  ⟨2, 3, 4, 0, 1, 1, 11⟩, ⟨1, 2, 3, 4, 0, 9, 12⟩, ⟨0, 1, 2, 3, 4, 11, 14⟩, ⟨4, 0, 1, 2, 3, 10, 15⟩,
  ⟨3, 4, 0, 1, 2, 0, 14⟩, ⟨2, 3, 4, 0, 1, 8, 15⟩, ⟨1, 2, 3, 4, 0, 12, 9⟩, ⟨0, 1, 2, 3, 4, 4, 8⟩,
  ⟨4, 0, 1, 2, 3, 13, 9⟩, ⟨3, 4, 0, 1, 2, 3, 14⟩, ⟨2, 3, 4, 0, 1, 7, 5⟩, ⟨1, 2, 3, 4, 0, 15, 6⟩,
  ⟨0, 1, 2, 3, 4, 14, 8⟩, ⟨4, 0, 1, 2, 3, 5, 6⟩, ⟨3, 4, 0, 1, 2, 6, 5⟩, ⟨2, 3, 4, 0, 1, 2, 12⟩]
/-- `round5` lines, c160.rs:195-210. -/
def r5 : List Step5 := [
  ⟨1, 2, 3, 4, 0, 4, 9⟩, ⟨0, 1, 2, 3, 4, 0, 15⟩, ⟨4, 0, 1, 2, 3, 5, 5⟩, ⟨3, 4, 0, 1, 2, 9, 11⟩,
  ⟨2, 3, 4, 0, 1, 7, 6⟩, ⟨1, 2, 3, 4, 0, 12, 8⟩, ⟨0, 1, 2, 3, 4, 2, 13⟩, ⟨4, 0, 1, 2, 3, 10, 12⟩,
  ⟨3, 4, 0, 1, 2, 14, 5⟩, ⟨2, 3, 4, 0, 1, 1, 12⟩, ⟨1, 2, 3, 4, 0, 3, 13⟩, ⟨0, 1, 2, 3, 4, 8, 14⟩,
  ⟨4, 0, 1, 2, 3, 11, 11⟩, ⟨3, 4, 0, 1, 2, 6, 8⟩, ⟨2, 3, 4, 0, 1, 15, 5⟩, ⟨1, 2, 3, 4, 0, 13, 6⟩]
/-- `par_round1` lines, c160.rs:213-228. -/
def pr1 : List Step5 := [
  ⟨0, 1, 2, 3, 4, 5, 8⟩, ⟨4, 0, 1, 2, 3, 14, 9⟩, ⟨3, 4, 0, 1, 2, 7, 9⟩, ⟨2, 3, 4, 0, 1, 0, 11⟩,
  ⟨1, 2, 3, 4, 0, 9, 13⟩, ⟨0, 1, 2, 3, 4, 2, 15⟩, ⟨4, 0, 1, 2, 3, 11, 15⟩, ⟨3, 4, 0, 1, 2, 4, 5⟩,
  ⟨2, 3, 4, 0, 1, 13, 7⟩, ⟨1, 2, 3, 4, 0, 6, 7⟩, ⟨0, 1, 2, 3, 4, 15, 8⟩, ⟨4, 0, 1, 2, 3, 8, 11⟩,
  ⟨3, 4, 0, 1, 2, 1, 14⟩, ⟨2, 3, 4, 0, 1, 10, 14⟩, ⟨1, 2, 3, 4, 0, 3, 12⟩, ⟨0, 1, 2, 3, 4, 12, 6⟩]
/-- `par_round2` lines, c160.rs:231-246. -/
def pr2 : List Step5 := [
  ⟨4, 0, 1, 2, 3, 6, 9⟩, ⟨3, 4, 0, 1, 2, 11, 13⟩, ⟨2, 3, 4, 0, 1, 3, 15⟩, ⟨1, 2, 3, 4, 0, 7, 7⟩,
  ⟨0, 1, 2, 3, 4, 0, 12⟩, ⟨4, 0, 1, 2, 3, 13, 8⟩, ⟨3, 4, 0, 1, 2, 5, 9⟩, ⟨2, 3, 4, 0, 1, 10, 11⟩,
  ⟨1, 2, 3, 4, 0, 14, 7⟩, ⟨0, 1, 2, 3, 4, 15, 7⟩, ⟨4, 0, 1, 2, 3, 8, 12⟩, ⟨3, 4, 0, 1, 2, 12, 7⟩,
  ⟨2, 3, 4, 0, 1, 4, 6⟩, ⟨1, 2, 3, 4, 0, 9, 15⟩, ⟨0, 1, 2, 3, 4, 1, 13⟩, ⟨4, 0, 1, 2, 3, 2, 11⟩]
/-- `par_round3` lines, c160.rs:249-264. -/
def pr3 : List Step5 := [
  ⟨3, 4, 0, 1, 2, 15, 9⟩, ⟨2, 3, 4, 0, 1, 5, 7⟩, ⟨1, 2, 3, 4, 0, 1, 15⟩, ⟨0, 1, 2, 3, 4, 3, 11⟩,
  ⟨4, 0, 1, 2, 3, 7, 8⟩, ⟨3, 4, 0, 1, 2, 14, 6⟩, ⟨2, 3, 4, 0, 1, 6, 6⟩, ⟨1, 2, 3, 4, 0, 9, 14⟩,
  ⟨0, 1, 2, 3, 4, 11, 12⟩, ⟨4, 0, 1, 2, 3, 8, 13⟩, ⟨3, 4, 0, 1, 2, 12, 5⟩, ⟨2, 3, 4, 0, 1, 2, 14⟩,
  ⟨1, 2, 3, 4, 0, 10, 13⟩, ⟨0, 1, 2, 3, 4, 0, 13⟩, ⟨4, 0, 1, 2, 3, 4, 7⟩, ⟨3, 4, 0, 1, 2, 13, 5⟩]
/-- `par_round4` lines, c160.rs:267-282. -/
def pr4 : List Step5 := [
  ⟨2, 3, 4, 0, 1, 8, 15⟩, ⟨1, 2, 3, 4, 0, 6, 5⟩, ⟨0, 1, 2, 3, 4, 4, 8⟩, ⟨4, 0, 1, 2, 3, 1, 11⟩,
  ⟨3, 4, 0, 1, 2, 3, 14⟩, ⟨2, 3, 4, 0, 1, 11, 14⟩, ⟨1, 2, 3, 4, 0, 15, 6⟩, ⟨0, 1, 2, 3, 4, 0, 14⟩,
  ⟨4, 0, 1, 2, 3, 5, 6⟩, ⟨3, 4, 0, 1, 2, 12, 9⟩, ⟨2, 3, 4, 0, 1, 2, 12⟩, ⟨1, 2, 3, 4, 0, 13, 9⟩,
  ⟨0, 1, 2, 3, 4, 9, 12⟩, ⟨4, 0, 1, 2, 3, 7, 5⟩, ⟨3, 4, 0, 1, 2, 10, 15⟩, ⟨2, 3, 4, 0, 1, 14, 8⟩]
/-- `par_round5` lines, c160.rs:285-300. -/
def pr5 : List Step5 := [
  ⟨1, 2, 3, 4, 0, 12, 8⟩, ⟨0, 1, 2, 3, 4, 15, 5⟩, ⟨4, 0, 1, 2, 3, 10, 12⟩, ⟨3, 4, 0, 1, 2, 4, 9⟩,
  ⟨2, 3, 4, 0, 1, 1, 12⟩, ⟨1, 2, 3, 4, 0, 5, 5⟩, ⟨0, 1, 2, 3, 4, 8, 14⟩, ⟨4, 0, 1, 2, 3, 7, 6⟩,
  ⟨3, 4, 0, 1, 2, 6, 8⟩, ⟨2, 3, 4, 0, 1, 2, 13⟩, ⟨1, 2, 3, 4, 0, 13, 6⟩, ⟨0, 1, 2, 3, 4, 14, 5⟩,
  ⟨4, 0, 1, 2, 3, 0, 15⟩, ⟨3, 4, 0, 1, 2, 3, 13⟩, ⟨2, 3, 4, 0, 1, 9, 11⟩, ⟨1, 2, 3, 4, 0, 11, 11⟩]

/-- `compress`, c160.rs:116-302 through `process_block!`, c160.rs:25-114 -/
def compress (h : V5 W32) (data : Bytes) : V5 W32 :=
  let w := wordLE 32 data
  let bb := h
  let bbb := h
  let bb := r1.foldl (round5 w 0x00000000 bf1) bb
  let bb := r2.foldl (round5 w 0x5a827999 bf2) bb
  let bb := r3.foldl (round5 w 0x6ed9eba1 bf3) bb
  let bb := r4.foldl (round5 w 0x8f1bbcdc bf4) bb
  let bb := r5.foldl (round5 w 0xa953fd4e bf5) bb
  let bbb := pr1.foldl (round5 w 0x50a28be6 bf5) bbb
  let bbb := pr2.foldl (round5 w 0x5c4dd124 bf4) bbb
  let bbb := pr3.foldl (round5 w 0x6d703ef3 bf3) bbb
  let bbb := pr4.foldl (round5 w 0x7a6d76e9 bf2) bbb
  let bbb := pr5.foldl (round5 w 0x00000000 bf1) bbb
  let bbb := bbb.set 3 (bbb.get 3 + h.get 1 + bb.get 2)
  let h := h.set 1 (h.get 2 + bb.get 3 + bbb.get 4)
  let h := h.set 2 (h.get 3 + bb.get 4 + bbb.get 0)
  let h := h.set 3 (h.get 4 + bb.get 0 + bbb.get 1)
  let h := h.set 4 (h.get 0 + bb.get 1 + bbb.get 2)
  h.set 0 (bbb.get 3)

/-- Module `c160`. -/
def M : Mod (V5 W32) := ⟨5, V5.toList, V5.ofFn, H0, compress⟩
end C160

/-- `Ripemd160`, lib.rs:171 -/
def ripemd160 : Core (State (V5 W32)) Bytes := core C160.M

/-! ### RIPEMD-128 -/
namespace C128

/-- `H0`, c128.rs:8 -/
def H0 : V4 W32 := ⟨0x67452301, 0xefcdab89, 0x98badcfe, 0x10325476⟩

/-- `round1` lines, c128.rs:101-116. -/
def r1 : List Step4 := [
  ⟨0, 1, 2, 3, 0, 11⟩, ⟨3, 0, 1, 2, 1, 14⟩, ⟨2, 3, 0, 1, 2, 15⟩, ⟨1, 2, 3, 0, 3, 12⟩,
  ⟨0, 1, 2, 3, 4, 5⟩, ⟨3, 0, 1, 2, 5, 8⟩, ⟨2, 3, 0, 1, 6, 7⟩, ⟨1, 2, 3, 0, 7, 9⟩,
  ⟨0, 1, 2, 3, 8, 11⟩, ⟨3, 0, 1, 2, 9, 13⟩, ⟨2, 3, 0, 1, 10, 14⟩, ⟨1, 2, 3, 0, 11, 15⟩,
  ⟨0, 1, 2, 3, 12, 6⟩, ⟨3, 0, 1, 2, 13, 7⟩, ⟨2, 3, 0, 1, 14, 9⟩, ⟨1, 2, 3, 0, 15, 8⟩]
/-- `round2` lines, c128.rs:119-134. -/
def r2 : List Step4 := [
  ⟨0, 1, 2, 3, 7, 7⟩, ⟨3, 0, 1, 2, 4, 6⟩, ⟨2, 3, 0, 1, 13, 8⟩, ⟨1, 2, 3, 0, 1, 13⟩,
  ⟨0, 1, 2, 3, 10, 11⟩, ⟨3, 0, 1, 2, 6, 9⟩, ⟨2, 3, 0, 1, 15, 7⟩, ⟨1, 2, 3, 0, 3, 15⟩,
  ⟨0, 1, 2, 3, 12, 7⟩, ⟨3, 0, 1, 2, 0, 12⟩, ⟨2, 3, 0, 1, 9, 15⟩, ⟨1, 2, 3, 0, 5, 9⟩,
  ⟨0, 1, 2, 3, 2, 11⟩, ⟨3, 0, 1, 2, 14, 7⟩, ⟨2, 3, 0, 1, 11, 13⟩, ⟨1, 2, 3, 0, 8, 12⟩]
/-- `round3` lines, c128.rs:137-152. -/
def r3 : List Step4 := [
  ⟨0, 1, 2, 3, 3, 11⟩, ⟨3, 0, 1, 2, 10, 13⟩, ⟨2, 3, 0, 1, 14, 6⟩, ⟨1, 2, 3, 0, 4, 7⟩,
  ⟨0, 1, 2, 3, 9, 14⟩, ⟨3, 0, 1, 2, 15, 9⟩, ⟨2, 3, 0, 1, 8, 13⟩, ⟨1, 2, 3, 0, 1, 15⟩,
  ⟨0, 1, 2, 3, 2, 14⟩, ⟨3, 0, 1, 2, 7, 8⟩, ⟨2, 3, 0, 1, 0, 13⟩, ⟨1, 2, 3, 0, 6, 6⟩,
  ⟨0, 1, 2, 3, 13, 5⟩, ⟨3, 0, 1, 2, 11, 12⟩, ⟨2, 3, 0, 1, 5, 7⟩, ⟨1, 2, 3, 0, 12, 5⟩]
/-- `round4` lines, c128.rs:155-170. -/
def r4 : List Step4 := [
  ⟨0, 1, 2, 3, 1, 11⟩, ⟨3, 0, 1, 2, 9, 12⟩, ⟨2, 3, 0, 1, 11, 14⟩, ⟨1, 2, 3, 0, 10, 15⟩,
  ⟨0, 1, 2, 3, 0, 14⟩, ⟨3, 0, 1, 2, 8, 15⟩, ⟨2, 3, 0, 1, 12, 9⟩, ⟨1, 2, 3, 0, 4, 8⟩,
  ⟨0, 1, 2, 3, 13, 9⟩, ⟨3, 0, 1, 2, 3, 14⟩, ⟨2, 3, 0, 1, 7, 5⟩, ⟨1, 2, 3, 0, 15, 6⟩,
  ⟨0, 1, 2, 3, 14, 8⟩, ⟨3, 0, 1, 2, 5, 6⟩, ⟨2, 3, 0, 1, 6, 5⟩, ⟨1, 2, 3, 0, 2, 12⟩]
/-- `par_round1` lines, c128.rs:173-188. -/
def pr1 : List Step4 := [
  ⟨0, 1, 2, 3, 5, 8⟩, ⟨3, 0, 1, 2, 14, 9⟩, ⟨2, 3, 0, 1, 7, 9⟩, ⟨1, 2, 3, 0, 0, 11⟩,
  ⟨0, 1, 2, 3, 9, 13⟩, ⟨3, 0, 1, 2, 2, 15⟩, ⟨2, 3, 0, 1, 11, 15⟩, ⟨1, 2, 3, 0, 4, 5⟩,
  ⟨0, 1, 2, 3, 13, 7⟩, ⟨3, 0, 1, 2, 6, 7⟩, ⟨2, 3, 0, 1, 15, 8⟩, ⟨1, 2, 3, 0, 8, 11⟩,
  ⟨0, 1, 2, 3, 1, 14⟩, ⟨3, 0, 1, 2, 10, 14⟩, ⟨2, 3, 0, 1, 3, 12⟩, ⟨1, 2, 3, 0, 12, 6⟩]
/-- `par_round2` lines, c128.rs:191-206. -/
def pr2 : List Step4 := [
  ⟨0, 1, 2, 3, 6, 9⟩, ⟨3, 0, 1, 2, 11, 13⟩, ⟨2, 3, 0, 1, 3, 15⟩, ⟨1, 2, 3, 0, 7, 7⟩,
  ⟨0, 1, 2, 3, 0, 12⟩, ⟨3, 0, 1, 2, 13, 8⟩, ⟨2, 3, 0, 1, 5, 9⟩, ⟨1, 2, 3, 0, 10, 11⟩,
  ⟨0, 1, 2, 3, 14, 7⟩, ⟨3, 0, 1, 2, 15, 7⟩, ⟨2, 3, 0, 1, 8, 12⟩, ⟨1, 2, 3, 0, 12, 7⟩,
  ⟨0, 1, 2, 3, 4, 6⟩, ⟨3, 0, 1, 2, 9, 15⟩, ⟨2, 3, 0, 1, 1, 13⟩, ⟨1, 2, 3, 0, 2, 11⟩]
/-- `par_round3` lines, c128.rs:209-224. -/
def pr3 : List Step4 := [
  ⟨0, 1, 2, 3, 15, 9⟩, ⟨3, 0, 1, 2, 5, 7⟩, ⟨2, 3, 0, 1, 1, 15⟩, ⟨1, 2, 3, 0, 3, 11⟩,
  ⟨0, 1, 2, 3, 7, 8⟩, ⟨3, 0, 1, 2, 14, 6⟩, ⟨2, 3, 0, 1, 6, 6⟩, ⟨1, 2, 3, 0, 9, 14⟩,
  ⟨0, 1, 2, 3, 11, 12⟩, ⟨3, 0, 1, 2, 8, 13⟩, ⟨2, 3, 0, 1, 12, 5⟩, ⟨1, 2, 3, 0, 2, 14⟩,
  ⟨0, 1, 2, 3, 10, 13⟩, ⟨3, 0, 1, 2, 0, 13⟩, ⟨2, 3, 0, 1, 4, 7⟩, ⟨1, 2, 3, 0, 13, 5⟩]
/-- `par_round4` lines, c128.rs:227-242. -/
def pr4 : List Step4 := [
  ⟨0, 1, 2, 3, 8, 15⟩, ⟨3, 0, 1, 2, 6, 5⟩, ⟨2, 3, 0, 1, 4, 8⟩, ⟨1, 2, 3, 0, 1, 11⟩,
  ⟨0, 1, 2, 3, 3, 14⟩, ⟨3, 0, 1, 2, 11, 14⟩, ⟨2, 3, 0, 1, 15, 6⟩, ⟨1, 2, 3, 0, 0, 14⟩,
  ⟨0, 1, 2, 3, 5, 6⟩, ⟨3, 0, 1, 2, 12, 9⟩, ⟨2, 3, 0, 1, 2, 12⟩, ⟨1, 2, 3, 0, 13, 9⟩,
  ⟨0, 1, 2, 3, 9, 12⟩, ⟨3, 0, 1, 2, 7, 5⟩, ⟨2, 3, 0, 1, 10, 15⟩, ⟨1, 2, 3, 0, 14, 8⟩]

/-- `compress`, c128.rs:94-244 through `process_block!`, c128.rs:18-92 -/
def compress (h : V4 W32) (data : Bytes) : V4 W32 :=
  let w := wordLE 32 data
  let bb := h
  let bbb := h
  let bb := r1.foldl (round4 w 0x00000000 bf1) bb
  let bb := r2.foldl (round4 w 0x5a827999 bf2) bb
  let bb := r3.foldl (round4 w 0x6ed9eba1 bf3) bb
  let bb := r4.foldl (round4 w 0x8f1bbcdc bf4) bb
  let bbb := pr1.foldl (round4 w 0x50a28be6 bf4) bbb
  let bbb := pr2.foldl (round4 w 0x5c4dd124 bf3) bbb
  let bbb := pr3.foldl (round4 w 0x6d703ef3 bf2) bbb
  let bbb := pr4.foldl (round4 w 0x00000000 bf1) bbb
  let bbb := bbb.set 3 (bbb.get 3 + h.get 1 + bb.get 2)
  let h := h.set 1 (h.get 2 + bb.get 3 + bbb.get 0)
  let h := h.set 2 (h.get 3 + bb.get 0 + bbb.get 1)
  let h := h.set 3 (h.get 0 + bb.get 1 + bbb.get 2)
  h.set 0 (bbb.get 3)

/-- Module `c128`. -/
def M : Mod (V4 W32) := ⟨4, V4.toList, V4.ofFn, H0, compress⟩
end C128

/-- `Ripemd128`, lib.rs:170 -/
def ripemd128 : Core (State (V4 W32)) Bytes := core C128.M

/-! ### RIPEMD-256 -/
namespace C256

/-- `H0`, c256.rs:9-18; the eight words are kept as the two halves the code splits them into (c256.rs:53-57). -/
def H0 : V2 (V4 W32) := ⟨⟨0x67452301, 0xefcdab89, 0x98badcfe, 0x10325476⟩, ⟨0x76543210, 0xfedcba98, 0x89abcdef, 0x01234567⟩⟩

/-- `round1` lines, c256.rs:132-147. -/
def r1 : List Step4 := [
  ⟨0, 1, 2, 3, 0, 11⟩, ⟨3, 0, 1, 2, 1, 14⟩, ⟨2, 3, 0, 1, 2, 15⟩, ⟨1, 2, 3, 0, 3, 12⟩,
  ⟨0, 1, 2, 3, 4, 5⟩, ⟨3, 0, 1, 2, 5, 8⟩, ⟨2, 3, 0, 1, 6, 7⟩, ⟨1, 2, 3, 0, 7, 9⟩,
  ⟨0, 1, 2, 3, 8, 11⟩, ⟨3, 0, 1, 2, 9, 13⟩, ⟨2, 3, 0, 1, 10, 14⟩, ⟨1, 2, 3, 0, 11, 15⟩,
  ⟨0, 1, 2, 3, 12, 6⟩, ⟨3, 0, 1, 2, 13, 7⟩, ⟨2, 3, 0, 1, 14, 9⟩, ⟨1, 2, 3, 0, 15, 8⟩]
/-- `round2` lines, c256.rs:150-165. -/
def r2 : List Step4 := [
  ⟨0, 1, 2, 3, 7, 7⟩, ⟨3, 0, 1, 2, 4, 6⟩, ⟨2, 3, 0, 1, 13, 8⟩, ⟨1, 2, 3, 0, 1, 13⟩,
  ⟨0, 1, 2, 3, 10, 11⟩, ⟨3, 0, 1, 2, 6, 9⟩, ⟨2, 3, 0, 1, 15, 7⟩, ⟨1, 2, 3, 0, 3, 15⟩,
  ⟨0, 1, 2, 3, 12, 7⟩, ⟨3, 0, 1, 2, 0, 12⟩, ⟨2, 3, 0, 1, 9, 15⟩, ⟨1, 2, 3, 0, 5, 9⟩,
  ⟨0, 1, 2, 3, 2, 11⟩, ⟨3, 0, 1, 2, 14, 7⟩, ⟨2, 3, 0, 1, 11, 13⟩, ⟨1, 2, 3, 0, 8, 12⟩]
/-- `round3` lines, c256.rs:168-183. -/
def r3 : List Step4 := [
  ⟨0, 1, 2, 3, 3, 11⟩, ⟨3, 0, 1, 2, 10, 13⟩, ⟨2, 3, 0, 1, 14, 6⟩, ⟨1, 2, 3, 0, 4, 7⟩,
  ⟨0, 1, 2, 3, 9, 14⟩, ⟨3, 0, 1, 2, 15, 9⟩, ⟨2, 3, 0, 1, 8, 13⟩, ⟨1, 2, 3, 0, 1, 15⟩,
  ⟨0, 1, 2, 3, 2, 14⟩, ⟨3, 0, 1, 2, 7, 8⟩, ⟨2, 3, 0, 1, 0, 13⟩, ⟨1, 2, 3, 0, 6, 6⟩,
  ⟨0, 1, 2, 3, 13, 5⟩, ⟨3, 0, 1, 2, 11, 12⟩, ⟨2, 3, 0, 1, 5, 7⟩, ⟨1, 2, 3, 0, 12, 5⟩]
/-- `round4` lines, c256.rs:186-201. -/
def r4 : List Step4 := [
  ⟨0, 1, 2, 3, 1, 11⟩, ⟨3, 0, 1, 2, 9, 12⟩, ⟨2, 3, 0, 1, 11, 14⟩, ⟨1, 2, 3, 0, 10, 15⟩,
  ⟨0, 1, 2, 3, 0, 14⟩, ⟨3, 0, 1, 2, 8, 15⟩, ⟨2, 3, 0, 1, 12, 9⟩, ⟨1, 2, 3, 0, 4, 8⟩,
  ⟨0, 1, 2, 3, 13, 9⟩, ⟨3, 0, 1, 2, 3, 14⟩, ⟨2, 3, 0, 1, 7, 5⟩, ⟨1, 2, 3, 0, 15, 6⟩,
  ⟨0, 1, 2, 3, 14, 8⟩, ⟨3, 0, 1, 2, 5, 6⟩, ⟨2, 3, 0, 1, 6, 5⟩, ⟨1, 2, 3, 0, 2, 12⟩]
/-- `par_round1` lines, c256.rs:204-219. -/
def pr1 : List Step4 := [
  ⟨0, 1, 2, 3, 5, 8⟩, ⟨3, 0, 1, 2, 14, 9⟩, ⟨2, 3, 0, 1, 7, 9⟩, ⟨1, 2, 3, 0, 0, 11⟩,
  ⟨0, 1, 2, 3, 9, 13⟩, ⟨3, 0, 1, 2, 2, 15⟩, ⟨2, 3, 0, 1, 11, 15⟩, ⟨1, 2, 3, 0, 4, 5⟩,
  ⟨0, 1, 2, 3, 13, 7⟩, ⟨3, 0, 1, 2, 6, 7⟩, ⟨2, 3, 0, 1, 15, 8⟩, ⟨1, 2, 3, 0, 8, 11⟩,
  ⟨0, 1, 2, 3, 1, 14⟩, ⟨3, 0, 1, 2, 10, 14⟩, ⟨2, 3, 0, 1, 3, 12⟩, ⟨1, 2, 3, 0, 12, 6⟩]
/-- `par_round2` lines, c256.rs:222-237. -/
def pr2 : List Step4 := [
  ⟨0, 1, 2, 3, 6, 9⟩, ⟨3, 0, 1, 2, 11, 13⟩, ⟨2, 3, 0, 1, 3, 15⟩, ⟨1, 2, 3, 0, 7, 7⟩,
  ⟨0, 1, 2, 3, 0, 12⟩, ⟨3, 0, 1, 2, 13, 8⟩, ⟨2, 3, 0, 1, 5, 9⟩, ⟨1, 2, 3, 0, 10, 11⟩,
  ⟨0, 1, 2, 3, 14, 7⟩, ⟨3, 0, 1, 2, 15, 7⟩, ⟨2, 3, 0, 1, 8, 12⟩, ⟨1, 2, 3, 0, 12, 7⟩,
  ⟨0, 1, 2, 3, 4, 6⟩, ⟨3, 0, 1, 2, 9, 15⟩, ⟨2, 3, 0, 1, 1, 13⟩, ⟨1, 2, 3, 0, 2, 11⟩]
/-- `par_round3` lines, c256.rs:240-255. -/
def pr3 : List Step4 := [
  ⟨0, 1, 2, 3, 15, 9⟩, ⟨3, 0, 1, 2, 5, 7⟩, ⟨2, 3, 0, 1, 1, 15⟩, ⟨1, 2, 3, 0, 3, 11⟩,
  ⟨0, 1, 2, 3, 7, 8⟩, ⟨3, 0, 1, 2, 14, 6⟩, ⟨2, 3, 0, 1, 6, 6⟩, ⟨1, 2, 3, 0, 9, 14⟩,
  ⟨0, 1, 2, 3, 11, 12⟩, ⟨3, 0, 1, 2, 8, 13⟩, ⟨2, 3, 0, 1, 12, 5⟩, ⟨1, 2, 3, 0, 2, 14⟩,
  ⟨0, 1, 2, 3, 10, 13⟩, ⟨3, 0, 1, 2, 0, 13⟩, ⟨2, 3, 0, 1, 4, 7⟩, ⟨1, 2, 3, 0, 13, 5⟩]
/-- `par_round4` lines, c256.rs:258-273. -/
def pr4 : List Step4 := [
  ⟨0, 1, 2, 3, 8, 15⟩, ⟨3, 0, 1, 2, 6, 5⟩, ⟨2, 3, 0, 1, 4, 8⟩, ⟨1, 2, 3, 0, 1, 11⟩,
  ⟨0, 1, 2, 3, 3, 14⟩, ⟨3, 0, 1, 2, 11, 14⟩, ⟨2, 3, 0, 1, 15, 6⟩, ⟨1, 2, 3, 0, 0, 14⟩,
  ⟨0, 1, 2, 3, 5, 6⟩, ⟨3, 0, 1, 2, 12, 9⟩, ⟨2, 3, 0, 1, 2, 12⟩, ⟨1, 2, 3, 0, 13, 9⟩,
  ⟨0, 1, 2, 3, 9, 12⟩, ⟨3, 0, 1, 2, 7, 5⟩, ⟨2, 3, 0, 1, 10, 15⟩, ⟨1, 2, 3, 0, 14, 8⟩]

/-- `swap_idx`, c256.rs:29-31 -/
def swapIdx (p : V4 W32 × V4 W32) (i : Nat) : V4 W32 × V4 W32 := (p.1.set i (p.2.get i), p.2.set i (p.1.get i))

/-- `compress`, c256.rs:123-275 through `process_block!`, c256.rs:33-121 -/
def compress (h : V2 (V4 W32)) (data : Bytes) : V2 (V4 W32) :=
  let w := wordLE 32 data
  let p := swapIdx (r1.foldl (round4 w 0x00000000 bf1) h.x0, pr1.foldl (round4 w 0x50a28be6 bf4) h.x1) 0
  let p := swapIdx (r2.foldl (round4 w 0x5a827999 bf2) p.1, pr2.foldl (round4 w 0x5c4dd124 bf3) p.2) 1
  let p := swapIdx (r3.foldl (round4 w 0x6ed9eba1 bf3) p.1, pr3.foldl (round4 w 0x6d703ef3 bf2) p.2) 2
  let p := swapIdx (r4.foldl (round4 w 0x8f1bbcdc bf4) p.1, pr4.foldl (round4 w 0x00000000 bf1) p.2) 3
  ⟨h.x0.zip (· + ·) p.1, h.x1.zip (· + ·) p.2⟩

/-- Module `c256`. -/
def M : Mod (V2 (V4 W32)) := ⟨8, fun h => h.x0.toList ++ h.x1.toList,
  fun f => ⟨V4.ofFn f, V4.ofFn fun i => f (i + 4)⟩, H0, compress⟩
end C256

/-- `Ripemd256`, lib.rs:172 -/
def ripemd256 : Core (State (V2 (V4 W32))) Bytes := core C256.M

/-! ### RIPEMD-320 -/
namespace C320

/-- `H0`, c320.rs:9-20; the ten words are kept as the two halves the code splits them into (c320.rs:60-64). -/
def H0 : V2 (V5 W32) :=
  ⟨⟨0x67452301, 0xefcdab89, 0x98badcfe, 0x10325476, 0xc3d2e1f0⟩,
   ⟨0x76543210, 0xfedcba98, 0x89abcdef, 0x01234567, 0x3c2d1e0f⟩⟩

/-- `round1` lines, c320.rs:154-169. -/
def r1 : List Step5 := [
  ⟨0, 1, 2, 3, 4, 0, 11⟩, ⟨4, 0, 1, 2, 3, 1, 14⟩, ⟨3, 4, 0, 1, 2, 2, 15⟩, ⟨2, 3, 4, 0, 1, 3, 12⟩,
  ⟨1, 2, 3, 4, 0, 4, 5⟩, ⟨0, 1, 2, 3, 4, 5, 8⟩, ⟨4, 0, 1, 2, 3, 6, 7⟩, ⟨3, 4, 0, 1, 2, 7, 9⟩,
  ⟨2, 3, 4, 0, 1, 8, 11⟩, ⟨1, 2, 3, 4, 0, 9, 13⟩, ⟨0, 1, 2, 3, 4, 10, 14⟩, ⟨4, 0, 1, 2, 3, 11, 15⟩,
  ⟨3, 4, 0, 1, 2, 12, 6⟩, ⟨2, 3, 4, 0, 1, 13, 7⟩, ⟨1, 2, 3, 4, 0, 14, 9⟩, ⟨0, 1, 2, 3, 4, 15, 8⟩]
/-- `round2` lines, c320.rs:172-187. -/
def r2 : List Step5 := [
  ⟨4, 0, 1, 2, 3, 7, 7⟩, ⟨3, 4, 0, 1, 2, 4, 6⟩, ⟨2, 3, 4, 0, 1, 13, 8⟩, ⟨1, 2, 3, 4, 0, 1, 13⟩,
  ⟨0, 1, 2, 3, 4, 10, 11⟩, ⟨4, 0, 1, 2, 3, 6, 9⟩, ⟨3, 4, 0, 1, 2, 15, 7⟩, ⟨2, 3, 4, 0, 1, 3, 15⟩,
  ⟨1, 2, 3, 4, 0, 12, 7⟩, ⟨0, 1, 2, 3, 4, 0, 12⟩, ⟨4, 0, 1, 2, 3, 9, 15⟩, ⟨3, 4, 0, 1, 2, 5, 9⟩,
  ⟨2, 3, 4, 0, 1, 2, 11⟩, ⟨1, 2, 3, 4, 0, 14, 7⟩, ⟨0, 1, 2, 3, 4, 11, 13⟩, ⟨4, 0, 1, 2, 3, 8, 12⟩]
/-- `round3` lines, c320.rs:190-205. -/
def r3 : List Step5 := [
  ⟨3, 4, 0, 1, 2, 3, 11⟩, ⟨2, 3, 4, 0, 1, 10, 13⟩, ⟨1, 2, 3, 4, 0, 14, 6⟩, ⟨0, 1, 2, 3, 4, 4, 7⟩,
  ⟨4, 0, 1, 2, 3, 9, 14⟩, ⟨3, 4, 0, 1, 2, 15, 9⟩, ⟨2, 3, 4, 0, 1, 8, 13⟩, ⟨1, 2, 3, 4, 0, 1, 15⟩,
  ⟨0, 1, 2, 3, 4, 2, 14⟩, ⟨4, 0, 1, 2, 3, 7, 8⟩, ⟨3, 4, 0, 1, 2, 0, 13⟩, ⟨2, 3, 4, 0, 1, 6, 6⟩,
  ⟨1, 2, 3, 4, 0, 13, 5⟩, ⟨0, 1, 2, 3, 4, 11, 12⟩, ⟨4, 0, 1, 2, 3, 5, 7⟩, ⟨3, 4, 0, 1, 2, 12, 5⟩]
/-- `round4` lines, c320.rs:208-223. -/
def r4 : List Step5 := [
  ⟨2, 3, 4, 0, 1, 1, 11⟩, ⟨1, 2, 3, 4, 0, 9, 12⟩, ⟨0, 1, 2, 3, 4, 11, 14⟩, ⟨4, 0, 1, 2, 3, 10, 15⟩,
  ⟨3, 4, 0, 1, 2, 0, 14⟩, ⟨2, 3, 4, 0, 1, 8, 15⟩, ⟨1, 2, 3, 4, 0, 12, 9⟩, ⟨0, 1, 2, 3, 4, 4, 8⟩,
  ⟨4, 0, 1, 2, 3, 13, 9⟩, ⟨3, 4, 0, 1, 2, 3, 14⟩, ⟨2, 3, 4, 0, 1, 7, 5⟩, ⟨1, 2, 3, 4, 0, 15, 6⟩,
  ⟨0, 1, 2, 3, 4, 14, 8⟩, ⟨4, 0, 1, 2, 3, 5, 6⟩, ⟨3, 4, 0, 1, 2, 6, 5⟩, ⟨2, 3, 4, 0, 1, 2, 12⟩]
/-- `round5` lines, c320.rs:226-241. -/
def r5 : List Step5 := [
  ⟨1, 2, 3, 4, 0, 4, 9⟩, ⟨0, 1, 2, 3, 4, 0, 15⟩, ⟨4, 0, 1, 2, 3, 5, 5⟩, ⟨3, 4, 0, 1, 2, 9, 11⟩,
  ⟨2, 3, 4, 0, 1, 7, 6⟩, ⟨1, 2, 3, 4, 0, 12, 8⟩, ⟨0, 1, 2, 3, 4, 2, 13⟩, ⟨4, 0, 1, 2, 3, 10, 12⟩,
  ⟨3, 4, 0, 1, 2, 14, 5⟩, ⟨2, 3, 4, 0, 1, 1, 12⟩, ⟨1, 2, 3, 4, 0, 3, 13⟩, ⟨0, 1, 2, 3, 4, 8, 14⟩,
  ⟨4, 0, 1, 2, 3, 11, 11⟩, ⟨3, 4, 0, 1, 2, 6, 8⟩, ⟨2, 3, 4, 0, 1, 15, 5⟩, ⟨1, 2, 3, 4, 0, 13, 6⟩]
/-- `par_round1` lines, c320.rs:244-259. -/
def pr1 : List Step5 := [
  ⟨0, 1, 2, 3, 4, 5, 8⟩, ⟨4, 0, 1, 2, 3, 14, 9⟩, ⟨3, 4, 0, 1, 2, 7, 9⟩, ⟨2, 3, 4, 0, 1, 0, 11⟩,
  ⟨1, 2, 3, 4, 0, 9, 13⟩, ⟨0, 1, 2, 3, 4, 2, 15⟩, ⟨4, 0, 1, 2, 3, 11, 15⟩, ⟨3, 4, 0, 1, 2, 4, 5⟩,
  ⟨2, 3, 4, 0, 1, 13, 7⟩, ⟨1, 2, 3, 4, 0, 6, 7⟩, ⟨0, 1, 2, 3, 4, 15, 8⟩, ⟨4, 0, 1, 2, 3, 8, 11⟩,
  ⟨3, 4, 0, 1, 2, 1, 14⟩, ⟨2, 3, 4, 0, 1, 10, 14⟩, ⟨1, 2, 3, 4, 0, 3, 12⟩, ⟨0, 1, 2, 3, 4, 12, 6⟩]
/-- `par_round2` lines, c320.rs:262-277. -/
def pr2 : List Step5 := [
  ⟨4, 0, 1, 2, 3, 6, 9⟩, ⟨3, 4, 0, 1, 2, 11, 13⟩, ⟨2, 3, 4, 0, 1, 3, 15⟩, ⟨1, 2, 3, 4, 0, 7, 7⟩,
  ⟨0, 1, 2, 3, 4, 0, 12⟩, ⟨4, 0, 1, 2, 3, 13, 8⟩, ⟨3, 4, 0, 1, 2, 5, 9⟩, ⟨2, 3, 4, 0, 1, 10, 11⟩,
  ⟨1, 2, 3, 4, 0, 14, 7⟩, ⟨0, 1, 2, 3, 4, 15, 7⟩, ⟨4, 0, 1, 2, 3, 8, 12⟩, ⟨3, 4, 0, 1, 2, 12, 7⟩,
  ⟨2, 3, 4, 0, 1, 4, 6⟩, ⟨1, 2, 3, 4, 0, 9, 15⟩, ⟨0, 1, 2, 3, 4, 1, 13⟩, ⟨4, 0, 1, 2, 3, 2, 11⟩]
/-- `par_round3` lines, c320.rs:280-295. -/
def pr3 : List Step5 := [
  ⟨3, 4, 0, 1, 2, 15, 9⟩, ⟨2, 3, 4, 0, 1, 5, 7⟩, ⟨1, 2, 3, 4, 0, 1, 15⟩, ⟨0, 1, 2, 3, 4, 3, 11⟩,
  ⟨4, 0, 1, 2, 3, 7, 8⟩, ⟨3, 4, 0, 1, 2, 14, 6⟩, ⟨2, 3, 4, 0, 1, 6, 6⟩, ⟨1, 2, 3, 4, 0, 9, 14⟩,
  ⟨0, 1, 2, 3, 4, 11, 12⟩, ⟨4, 0, 1, 2, 3, 8, 13⟩, ⟨3, 4, 0, 1, 2, 12, 5⟩, ⟨2, 3, 4, 0, 1, 2, 14⟩,
  ⟨1, 2, 3, 4, 0, 10, 13⟩, ⟨0, 1, 2, 3, 4, 0, 13⟩, ⟨4, 0, 1, 2, 3, 4, 7⟩, ⟨3, 4, 0, 1, 2, 13, 5⟩]
/-- `par_round4` lines, c320.rs:298-313. -/
def pr4 : List Step5 := [
  ⟨2, 3, 4, 0, 1, 8, 15⟩, ⟨1, 2, 3, 4, 0, 6, 5⟩, ⟨0, 1, 2, 3, 4, 4, 8⟩, ⟨4, 0, 1, 2, 3, 1, 11⟩,
  ⟨3, 4, 0, 1, 2, 3, 14⟩, ⟨2, 3, 4, 0, 1, 11, 14⟩, ⟨1, 2, 3, 4, 0, 15, 6⟩, ⟨0, 1, 2, 3, 4, 0, 14⟩,
  ⟨4, 0, 1, 2, 3, 5, 6⟩, ⟨3, 4, 0, 1, 2, 12, 9⟩, ⟨2, 3, 4, 0, 1, 2, 12⟩, ⟨1, 2, 3, 4, 0, 13, 9⟩,
  ⟨0, 1, 2, 3, 4, 9, 12⟩, ⟨4, 0, 1, 2, 3, 7, 5⟩, ⟨3, 4, 0, 1, 2, 10, 15⟩, ⟨2, 3, 4, 0, 1, 14, 8⟩]
/-- `par_round5` lines, c320.rs:316-331. -/
def pr5 : List Step5 := [
  ⟨1, 2, 3, 4, 0, 12, 8⟩, ⟨0, 1, 2, 3, 4, 15, 5⟩, ⟨4, 0, 1, 2, 3, 10, 12⟩, ⟨3, 4, 0, 1, 2, 4, 9⟩,
  ⟨2, 3, 4, 0, 1, 1, 12⟩, ⟨1, 2, 3, 4, 0, 5, 5⟩, ⟨0, 1, 2, 3, 4, 8, 14⟩, ⟨4, 0, 1, 2, 3, 7, 6⟩,
  ⟨3, 4, 0, 1, 2, 6, 8⟩, ⟨2, 3, 4, 0, 1, 2, 13⟩, ⟨1, 2, 3, 4, 0, 13, 6⟩, ⟨0, 1, 2, 3, 4, 14, 5⟩,
  ⟨4, 0, 1, 2, 3, 0, 15⟩, ⟨3, 4, 0, 1, 2, 3, 13⟩, ⟨2, 3, 4, 0, 1, 9, 11⟩, ⟨1, 2, 3, 4, 0, 11, 11⟩]

/-- `swap_idx`, c320.rs:32-34 -/
def swapIdx (p : V5 W32 × V5 W32) (i : Nat) : V5 W32 × V5 W32 := (p.1.set i (p.2.get i), p.2.set i (p.1.get i))

/-- `compress`, c320.rs:146-333 through `process_block!`, c320.rs:36-144 -/
def compress (h : V2 (V5 W32)) (data : Bytes) : V2 (V5 W32) :=
  let w := wordLE 32 data
  let p := swapIdx (r1.foldl (round5 w 0x00000000 bf1) h.x0, pr1.foldl (round5 w 0x50a28be6 bf5) h.x1) 0
  let p := swapIdx (r2.foldl (round5 w 0x5a827999 bf2) p.1, pr2.foldl (round5 w 0x5c4dd124 bf4) p.2) 1
  let p := swapIdx (r3.foldl (round5 w 0x6ed9eba1 bf3) p.1, pr3.foldl (round5 w 0x6d703ef3 bf3) p.2) 2
  let p := swapIdx (r4.foldl (round5 w 0x8f1bbcdc bf4) p.1, pr4.foldl (round5 w 0x7a6d76e9 bf2) p.2) 3
  let p := swapIdx (r5.foldl (round5 w 0xa953fd4e bf5) p.1, pr5.foldl (round5 w 0x00000000 bf1) p.2) 4
  ⟨h.x0.zip (· + ·) p.1, h.x1.zip (· + ·) p.2⟩

/-- Module `c320`. -/
def M : Mod (V2 (V5 W32)) := ⟨10, fun h => h.x0.toList ++ h.x1.toList,
  fun f => ⟨V5.ofFn f, V5.ofFn fun i => f (i + 5)⟩, H0, compress⟩
end C320

/-- `Ripemd320`, lib.rs:173 -/
def ripemd320 : Core (State (V2 (V5 W32))) Bytes := core C320.M

end Hashes.Ripemd
