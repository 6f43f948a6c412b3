import Verif.Model.Blake2
import Verif.Model.Endian
/-
The parts of blake2 that depend on the target and on the features `simd`, `simd_opt`, `simd_asm`:
/repo/blake2/src/{as_bytes,simd}.rs, /repo/blake2/src/simd/{simdop,simd_opt}.rs, simd_opt/{u32x4,u64x4}.rs, and the code of
macros.rs that calls them. Model/Blake2.lean is the little-endian build without those features.

The intrinsics of simd/simdint.rs:10-22 are external: `simd_add`, `simd_xor`, `simd_shl`, `simd_shr` work lane by lane,
`simd_shuffleN(v, w, idx)` picks lanes of `v` followed by `w`, `transmute` reinterprets memory.
-/
namespace Hashes.Blake2.Simd
open Hashes.Blake2

/-- What a build fixes: byte order, crate features `simd` and `simd_opt`, target features, and
`all(feature = "simd_asm", target_feature = "neon", target_arch = "arm")`. -/
structure Target where
  endian : Endian
  simd : Bool
  simdOpt : Bool
  ssse3 : Bool
  sse2 : Bool
  neon : Bool
  asmArm : Bool
  deriving DecidableEq

variable {w : Nat}

/-- `from_le`, simd.rs:52-67. -/
def fromLe (e : Endian) (v : Vec w) : Vec w :=
  match e with
  | .little => v
  | .big => ⟨wordLe .big v.x0, wordLe .big v.x1, wordLe .big v.x2, wordLe .big v.x3⟩

/-- `to_le`, simd.rs:69-84. -/
def toLe (e : Endian) (v : Vec w) : Vec w :=
  match e with
  | .little => v
  | .big => ⟨wordLe .big v.x0, wordLe .big v.x1, wordLe .big v.x2, wordLe .big v.x3⟩

/-- `as_bytes` of an array of vectors, as_bytes.rs:18-23: the lanes in order, each in memory order. -/
def asBytes (e : Endian) (l : List (Vec w)) : Bytes :=
  l.flatMap fun v => v.toList.flatMap fun x => neBytes e (w / 8) x.toNat

/-! ### Shuffles and rotations -/

/-- `simd_shuffleN(v, w, idx)`, simdint.rs:17-21 (external). -/
def shuf {α : Type} [Inhabited α] (v u : List α) (idx : List Nat) : List α := idx.map fun i => (v ++ u).getD i default

/-- Four lanes as a vector. -/
def ofList (l : List (BitVec w)) : Vec w := V4.ofFn fun i => l.getD i 0

/-- Lanes of `m` bits of the memory `b` (`transmute` to a vector of `m`-bit lanes). -/
def lanesOf (e : Endian) (m : Nat) (b : Bytes) : List (BitVec m) :=
  (chunks (m / 8) b).map fun c => BitVec.ofNat m (ofNe e c)

/-- The memory of a list of lanes (`transmute` from a vector). -/
def memOf (e : Endian) {m : Nat} (l : List (BitVec m)) : Bytes := l.flatMap fun x => neBytes e (m / 8) x.toNat

/-- `transmute_shuffle!`, simd_opt.rs:10-23, with `$tmp` a vector of `m`-bit lanes. -/
def transmuteShuffle (e : Endian) (m : Nat) (idx : List Nat) (v : Vec w) : Vec w :=
  let tmpI : List (BitVec m) := lanesOf e m (memOf e v.toList)
  let tmpO := shuf tmpI tmpI idx
  ofList (lanesOf e w (memOf e tmpO))

/-- `shuffle_left_1`, simd.rs:96-108. -/
def shuffleLeft1 (t : Target) (v : Vec w) : Vec w :=
  if t.simd then ofList (shuf v.toList v.toList [1, 2, 3, 0]) else v.shuffleLeft1
/-- `shuffle_left_2`, simd.rs:110-122. -/
def shuffleLeft2 (t : Target) (v : Vec w) : Vec w :=
  if t.simd then ofList (shuf v.toList v.toList [2, 3, 0, 1]) else v.shuffleLeft2
/-- `shuffle_left_3`, simd.rs:124-136. -/
def shuffleLeft3 (t : Target) (v : Vec w) : Vec w :=
  if t.simd then ofList (shuf v.toList v.toList [3, 0, 1, 2]) else v.shuffleLeft3

/-- `>>` of vectors, simdop.rs:79-98 (shift amounts below the lane width). -/
def shr (v r : Vec w) : Vec w := v.zip (fun x n => x >>> n.toNat) r
/-- `<<` of vectors, simdop.rs:58-77 (shift amounts below the lane width). -/
def shl (v r : Vec w) : Vec w := v.zip (fun x n => x <<< n.toNat) r

/-- `rotate_right_any`, u32x4.rs:26-32 and u64x4.rs:27-33. -/
def rotateRightAny (v : Vec w) (n : Nat) : Vec w :=
  let r := BitVec.ofNat w n
  let l := BitVec.ofNat w w - r
  (shr v ⟨r, r, r, r⟩).xor (shl v ⟨l, l, l, l⟩)

/-- `rotate_right_16`, u32x4.rs:34-52. -/
def rotateRight16x32 (t : Target) (v : Vec 32) : Vec 32 :=
  if t.ssse3 then transmuteShuffle t.endian 8 [2, 3, 0, 1, 6, 7, 4, 5, 10, 11, 8, 9, 14, 15, 12, 13] v
  else if t.sse2 || t.neon then transmuteShuffle t.endian 16 [1, 0, 3, 2, 5, 4, 7, 6] v
  else rotateRightAny v 16

/-- `rotate_right_8`, u32x4.rs:54-69. -/
def rotateRight8x32 (t : Target) (v : Vec 32) : Vec 32 :=
  if t.ssse3 then transmuteShuffle t.endian 8 [1, 2, 3, 0, 5, 6, 7, 4, 9, 10, 11, 8, 13, 14, 15, 12] v
  else rotateRightAny v 8

/-- `rotate_right_const` of `u32x4`: u32x4.rs:10-24 with the feature `simd`, simd_opt.rs:36-44 without. -/
def rotateRightConst32 (t : Target) (v : Vec 32) (n : Nat) : Vec 32 :=
  if t.simd then
    if t.simdOpt then
      match n with
      | 16 => rotateRight16x32 t v
      | 8 => rotateRight8x32 t v
      | n => rotateRightAny v n
    else rotateRightAny v n
  else v.ror n

/-- `vext.8 d, s, s, #b` on a 64-bit register (external): bytes `b .. b+7` of the register followed by itself. -/
def vext8 (x : W64) (b : Nat) : W64 :=
  BitVec.ofNat 64 (ofLE (((leBytes 8 x.toNat ++ leBytes 8 x.toNat).drop b).take 8))

/-- `vext_u64`, u64x4.rs:113-122: both halves of a quad register. -/
def vextU64 (v : List W64) (b : Nat) : List W64 := v.map (vext8 · b)

/-- `rotate_right_vext`, u64x4.rs:124-133. -/
def rotateRightVext (v : Vec 64) (b : Nat) : Vec 64 :=
  let tmp0 := vextU64 (shuf v.toList v.toList [0, 1]) b
  let tmp1 := vextU64 (shuf v.toList v.toList [2, 3]) b
  ofList (shuf tmp0 tmp1 [0, 1, 2, 3])

/-- `rotate_right_32`, u64x4.rs:35-44. -/
def rotateRight32x64 (t : Target) (v : Vec 64) : Vec 64 :=
  if t.sse2 || t.neon then transmuteShuffle t.endian 32 [1, 0, 3, 2, 5, 4, 7, 6] v
  else rotateRightAny v 32

/-- `rotate_right_24`, u64x4.rs:46-71. -/
def rotateRight24x64 (t : Target) (v : Vec 64) : Vec 64 :=
  if t.asmArm then rotateRightVext v 3
  else if t.ssse3 then
    transmuteShuffle t.endian 8
      [3, 4, 5, 6, 7, 0, 1, 2, 11, 12, 13, 14, 15, 8, 9, 10, 19, 20, 21, 22, 23, 16, 17,
       18, 27, 28, 29, 30, 31, 24, 25, 26] v
  else rotateRightAny v 24

/-- `rotate_right_16`, u64x4.rs:73-107. -/
def rotateRight16x64 (t : Target) (v : Vec 64) : Vec 64 :=
  if t.asmArm then rotateRightVext v 2
  else if t.ssse3 then
    transmuteShuffle t.endian 8
      [2, 3, 4, 5, 6, 7, 0, 1, 10, 11, 12, 13, 14, 15, 8, 9, 18, 19, 20, 21, 22, 23, 16,
       17, 26, 27, 28, 29, 30, 31, 24, 25] v
  else if t.sse2 then
    transmuteShuffle t.endian 16 [1, 2, 3, 0, 5, 6, 7, 4, 9, 10, 11, 8, 13, 14, 15, 12] v
  else rotateRightAny v 16

/-- `rotate_right_const` of `u64x4`: u64x4.rs:10-25 with the feature `simd`, simd_opt.rs:36-44 without. -/
def rotateRightConst64 (t : Target) (v : Vec 64) (n : Nat) : Vec 64 :=
  if t.simd then
    if t.simdOpt then
      match n with
      | 32 => rotateRight32x64 t v
      | 24 => rotateRight24x64 t v
      | 16 => rotateRight16x64 t v
      | n => rotateRightAny v n
    else rotateRightAny v n
  else v.ror n

/-! ### `blake2_impl!` over a target -/

/-- The operations of `Vector4` (simd.rs:15-42) a target provides. -/
structure Ops (w : Nat) where
  endian : Endian
  ror : Vec w → Nat → Vec w
  left1 : Vec w → Vec w
  left2 : Vec w → Vec w
  left3 : Vec w → Vec w

/-- `impl_vector4!(u32x4, u32)`, simd.rs:141. -/
def ops32 (t : Target) : Ops 32 := ⟨t.endian, rotateRightConst32 t, shuffleLeft1 t, shuffleLeft2 t, shuffleLeft3 t⟩
/-- `impl_vector4!(u64x4, u64)`, simd.rs:142. -/
def ops64 (t : Target) : Ops 64 := ⟨t.endian, rotateRightConst64 t, shuffleLeft1 t, shuffleLeft2 t, shuffleLeft3 t⟩

/-- `quarter_round`, macros.rs:109-114. -/
def quarterRound (o : Ops w) (v : V4 (Vec w)) (rd rb : Nat) (m : Vec w) : V4 (Vec w) :=
  let v0 := (v.x0.add v.x1).add (fromLe o.endian m)
  let v3 := o.ror (v.x3.xor v0) rd
  let v2 := v.x2.add v3
  let v1 := o.ror (v.x1.xor v2) rb
  ⟨v0, v1, v2, v3⟩

/-- `shuffle`, macros.rs:117-121. -/
def shuffle (o : Ops w) (v : V4 (Vec w)) : V4 (Vec w) := ⟨v.x0, o.left1 v.x1, o.left2 v.x2, o.left3 v.x3⟩
/-- `unshuffle`, macros.rs:124-128 (`shuffle_right_i`, simd.rs:30-41). -/
def unshuffle (o : Ops w) (v : V4 (Vec w)) : V4 (Vec w) := ⟨v.x0, o.left3 v.x1, o.left2 v.x2, o.left1 v.x3⟩

/-- `round`, macros.rs:131-139. -/
def round (o : Ops w) (c : Cfg w) (m : Nat → BitVec w) (s : List Nat) (v : V4 (Vec w)) : V4 (Vec w) :=
  let s := fun i => s.getD i 0
  let v := quarterRound o v c.R1 c.R2 (gather m (s 0) (s 2) (s 4) (s 6))
  let v := quarterRound o v c.R3 c.R4 (gather m (s 1) (s 3) (s 5) (s 7))
  let v := shuffle o v
  let v := quarterRound o v c.R1 c.R2 (gather m (s 8) (s 10) (s 12) (s 14))
  let v := quarterRound o v c.R3 c.R4 (gather m (s 9) (s 11) (s 13) (s 15))
  unshuffle o v

/-- The `i`-th word read with `from_ne_bytes`, macros.rs:141-145. -/
def wordNe (e : Endian) (w : Nat) (l : Bytes) (i : Nat) : BitVec w :=
  BitVec.ofNat w (ofNe e ((l.drop (w / 8 * i)).take (w / 8)))

/-- `compress`, macros.rs:105-179, on `(self.h, self.t)`. -/
def compress (o : Ops w) (c : Cfg w) (h : V2 (Vec w)) (t : W64) (block : Bytes) (f0 f1 : BitVec w) : V2 (Vec w) :=
  let m := wordNe o.endian w block
  let t0 : BitVec w := t.setWidth w
  let t1 : BitVec w := if c.bytes = 64 then 0 else (t >>> 32).setWidth w
  let v : V4 (Vec w) := ⟨h.x0, h.x1, c.iv0, c.iv1.xor ⟨t0, t1, f0, f1⟩⟩
  let v := round o c m (sigma 0) v
  let v := round o c m (sigma 1) v
  let v := round o c m (sigma 2) v
  let v := round o c m (sigma 3) v
  let v := round o c m (sigma 4) v
  let v := round o c m (sigma 5) v
  let v := round o c m (sigma 6) v
  let v := round o c m (sigma 7) v
  let v := round o c m (sigma 8) v
  let v := round o c m (sigma 9) v
  let v :=
    if c.bytes = 64 then
      let v := round o c m (sigma 0) v
      round o c m (sigma 1) v
    else v
  ⟨h.x0.xor (v.x0.xor v.x2), h.x1.xor (v.x1.xor v.x3)⟩

/-- `update_blocks`, macros.rs:194-199. -/
def updateBlocks (o : Ops w) (c : Cfg w) (s : State w) (blks : List Bytes) : State w :=
  blks.foldl (fun s b =>
    let t := s.t + BitVec.ofNat 64 b.length
    { s with t := t, h := compress o c s.h t b 0 0 }) s

/-- `finalize_variable_core` (macros.rs:218-226) with `finalize_with_flag(.., 0, ..)` (macros.rs:94-103). -/
def finalizeFull (o : Ops w) (c : Cfg w) (s : State w) (buffer : BlockBuffer) : Bytes :=
  let t := s.t + BitVec.ofNat 64 buffer.pos
  let block := (buffer.padWithZeros c.blockSize).1
  let h := compress o c s.h t block (BitVec.allOnes w) 0
  asBytes o.endian [toLe o.endian h.x0, toLe o.endian h.x1]

/-- `Blake2{b,s}VarCore` on a target; construction (`new`, macros.rs:210-215) involves no target-dependent code
(`from_le_bytes` throughout). -/
def varCore (o : Ops w) (c : Cfg w) : VarCore (State w) where
  kind := .lazy
  bs := c.blockSize
  outLen := c.bytes
  new := new c
  updateBlocks := updateBlocks o c
  finalizeFull := finalizeFull o c
  side := .left
  serialize := fun _ => []
  deserialize := fun _ => none
  serLen := 0

/-- `Update::update` of the MAC, macros.rs:384-387. -/
def macUpdate (o : Ops w) (c : Cfg w) (m : Mac w) (input : Bytes) : Mac w :=
  let r := m.buffer.digestBlocks .lazy c.blockSize input (updateBlocks o c) m.core
  { m with core := r.2, buffer := r.1 }

/-- The tag, macros.rs:404-409. -/
def macFinalize (o : Ops w) (c : Cfg w) (outSize : Nat) (m : Mac w) : Bytes := (finalizeFull o c m.core m.buffer).take outSize

/-- A sequence of calls on a live MAC object of a target. -/
def macRun (o : Ops w) (c : Cfg w) (outSize : Nat) (m : Mac w) : List MacOp → List Bytes
  | [] => []
  | .update d :: ops => macRun o c outSize (macUpdate o c m d) ops
  | .reset :: ops => macRun o c outSize (m.reset c) ops
  | .finalizeReset :: ops => macFinalize o c outSize m :: macRun o c outSize (m.reset c) ops
  | .finalizeClone :: ops => macFinalize o c outSize m :: macRun o c outSize m ops

end Hashes.Blake2.Simd
