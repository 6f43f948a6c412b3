import Verif.Base.Vec
import Verif.Model.VarCore
/- Model of BLAKE2b/BLAKE2s: /repo/blake2/src/{lib,macros,consts,simd}.rs and /repo/blake2/src/simd/*.rs
(without the unusable `simd` feature: `u32x4`/`u64x4` are four words, operations lane-wise). -/
namespace Hashes.Blake2

/-- `SIGMA`, /repo/blake2/src/consts.rs:3-16. -/
def SIGMA : List (List Nat) := [
    [0, 1, 2, 3, 4, 5, 6, 7, 8, 9, 10, 11, 12, 13, 14, 15],
    [14, 10, 4, 8, 9, 15, 13, 6, 1, 12, 0, 2, 11, 7, 5, 3],
    [11, 8, 12, 0, 5, 2, 15, 13, 10, 14, 3, 6, 7, 1, 9, 4],
    [7, 9, 3, 1, 13, 12, 11, 14, 2, 6, 5, 10, 4, 0, 15, 8],
    [9, 0, 5, 7, 2, 4, 10, 15, 14, 1, 11, 12, 6, 8, 3, 13],
    [2, 12, 6, 10, 0, 11, 8, 3, 4, 13, 7, 5, 15, 14, 1, 9],
    [12, 5, 1, 15, 14, 13, 4, 10, 0, 7, 6, 3, 9, 2, 8, 11],
    [13, 11, 7, 14, 12, 1, 3, 9, 5, 0, 15, 4, 8, 6, 2, 10],
    [6, 15, 14, 9, 11, 3, 0, 8, 12, 2, 13, 7, 1, 4, 10, 5],
    [10, 2, 8, 4, 7, 6, 1, 5, 15, 11, 9, 14, 3, 12, 13, 0],
    [0, 1, 2, 3, 4, 5, 6, 7, 8, 9, 10, 11, 12, 13, 14, 15],
    [14, 10, 4, 8, 9, 15, 13, 6, 1, 12, 0, 2, 11, 7, 5, 3]]

/-- `SIGMA[i]`, all uses have `i < 12`. -/
def sigma (i : Nat) : List Nat := SIGMA.getD i []

/-- The parameters of the macro `blake2_impl!`, /repo/blake2/src/macros.rs:1-6: word size (type), `$bytes` (output size),
`$block_size`, `$R1..$R4`, `$IV`. -/
structure Cfg (w : Nat) where
  bytes : Nat
  blockSize : Nat
  R1 : Nat
  R2 : Nat
  R3 : Nat
  R4 : Nat
  IV : V8 (BitVec w)

/-- /repo/blake2/src/lib.rs:50-64, IV: consts.rs:18-27. -/
def cfgB : Cfg 64 where
  bytes := 64
  blockSize := 128
  R1 := 32
  R2 := 24
  R3 := 16
  R4 := 63
  IV := ⟨0x6a09e667f3bcc908, 0xbb67ae8584caa73b, 0x3c6ef372fe94f82b, 0xa54ff53a5f1d36f1,
    0x510e527fade682d1, 0x9b05688c2b3e6c1f, 0x1f83d9abfb41bd6b, 0x5be0cd19137e2179⟩

/-- /repo/blake2/src/lib.rs:84-98, IV: consts.rs:37-39. -/
def cfgS : Cfg 32 where
  bytes := 32
  blockSize := 64
  R1 := 16
  R2 := 12
  R3 := 8
  R4 := 7
  IV := ⟨0x6A09E667, 0xBB67AE85, 0x3C6EF372, 0xA54FF53A, 0x510E527F, 0x9B05688C, 0x1F83D9AB, 0x5BE0CD19⟩

variable {w : Nat}

/-- `u32x4`/`u64x4`, /repo/blake2/src/simd/simdty.rs. -/
abbrev Vec (w : Nat) := V4 (BitVec w)

/-- `wrapping_add`, simd.rs:87-89 via simdop.rs:27-34. -/
def Vec.add (a b : Vec w) : Vec w := a.zip (· + ·) b
/-- `bitxor`, simdop.rs:48-55. -/
def Vec.xor (a b : Vec w) : Vec w := a.zip (· ^^^ ·) b
/-- `rotate_right_const`, simd_opt.rs:36-43. -/
def Vec.ror (a : Vec w) (n : Nat) : Vec w := a.map (·.rotateRight n)
/-- `shuffle_left_1`, simd.rs:106-108. -/
def Vec.shuffleLeft1 (a : Vec w) : Vec w := ⟨a.x1, a.x2, a.x3, a.x0⟩
/-- `shuffle_left_2`, simd.rs:120-122. -/
def Vec.shuffleLeft2 (a : Vec w) : Vec w := ⟨a.x2, a.x3, a.x0, a.x1⟩
/-- `shuffle_left_3`, simd.rs:134-136. -/
def Vec.shuffleLeft3 (a : Vec w) : Vec w := ⟨a.x3, a.x0, a.x1, a.x2⟩
/-- `shuffle_right_1`, simd.rs:31-33. -/
def Vec.shuffleRight1 (a : Vec w) : Vec w := a.shuffleLeft3
/-- `shuffle_right_2`, simd.rs:35-37. -/
def Vec.shuffleRight2 (a : Vec w) : Vec w := a.shuffleLeft2
/-- `shuffle_right_3`, simd.rs:39-41. -/
def Vec.shuffleRight3 (a : Vec w) : Vec w := a.shuffleLeft1
/-- `gather`, simd.rs:48-50. -/
def gather (m : Nat → BitVec w) (i0 i1 i2 i3 : Nat) : Vec w := ⟨m i0, m i1, m i2, m i3⟩

/-- `quarter_round`, macros.rs:109-114. (`m.from_le()` of words read with `from_ne_bytes` is the little-endian reading;
the model reads the words little-endian at once.) -/
def quarterRound (v : V4 (Vec w)) (rd rb : Nat) (m : Vec w) : V4 (Vec w) :=
  let v0 := (v.x0.add v.x1).add m
  let v3 := (v.x3.xor v0).ror rd
  let v2 := v.x2.add v3
  let v1 := (v.x1.xor v2).ror rb
  ⟨v0, v1, v2, v3⟩

/-- `shuffle`, macros.rs:117-121. -/
def shuffle (v : V4 (Vec w)) : V4 (Vec w) := ⟨v.x0, v.x1.shuffleLeft1, v.x2.shuffleLeft2, v.x3.shuffleLeft3⟩
/-- `unshuffle`, macros.rs:124-128. -/
def unshuffle (v : V4 (Vec w)) : V4 (Vec w) := ⟨v.x0, v.x1.shuffleRight1, v.x2.shuffleRight2, v.x3.shuffleRight3⟩

/-- `round`, macros.rs:131-139. -/
def round (c : Cfg w) (m : Nat → BitVec w) (s : List Nat) (v : V4 (Vec w)) : V4 (Vec w) :=
  let s := fun i => s.getD i 0
  let v := quarterRound v c.R1 c.R2 (gather m (s 0) (s 2) (s 4) (s 6))
  let v := quarterRound v c.R3 c.R4 (gather m (s 1) (s 3) (s 5) (s 7))
  let v := shuffle v
  let v := quarterRound v c.R1 c.R2 (gather m (s 8) (s 10) (s 12) (s 14))
  let v := quarterRound v c.R3 c.R4 (gather m (s 9) (s 11) (s 13) (s 15))
  unshuffle v

/-- `iv0`, macros.rs:18-20. -/
def Cfg.iv0 (c : Cfg w) : Vec w := ⟨c.IV.x0, c.IV.x1, c.IV.x2, c.IV.x3⟩
/-- `iv1`, macros.rs:22-24. -/
def Cfg.iv1 (c : Cfg w) : Vec w := ⟨c.IV.x4, c.IV.x5, c.IV.x6, c.IV.x7⟩

/-- `Blake2{b,s}VarCore`, macros.rs:9-14 (with the `reset` feature). -/
structure State (w : Nat) where
  h : V2 (Vec w)
  t : W64
  h0 : V2 (Vec w)
deriving DecidableEq

/-- `compress`, macros.rs:105-179, on `(self.h, self.t)`. -/
def compress (c : Cfg w) (h : V2 (Vec w)) (t : W64) (block : Bytes) (f0 f1 : BitVec w) : V2 (Vec w) :=
  let m := wordLE w block
  let t0 : BitVec w := t.setWidth w
  let t1 : BitVec w := if c.bytes = 64 then 0 else (t >>> 32).setWidth w
  let v : V4 (Vec w) := ⟨h.x0, h.x1, c.iv0, c.iv1.xor ⟨t0, t1, f0, f1⟩⟩
  let v := round c m (sigma 0) v
  let v := round c m (sigma 1) v
  let v := round c m (sigma 2) v
  let v := round c m (sigma 3) v
  let v := round c m (sigma 4) v
  let v := round c m (sigma 5) v
  let v := round c m (sigma 6) v
  let v := round c m (sigma 7) v
  let v := round c m (sigma 8) v
  let v := round c m (sigma 9) v
  let v :=
    if c.bytes = 64 then
      let v := round c m (sigma 0) v
      round c m (sigma 1) v
    else v
  ⟨h.x0.xor (v.x0.xor v.x2), h.x1.xor (v.x1.xor v.x3)⟩

/-- The two words `p[4], p[5]` (or `p[6], p[7]`) built from the salt (persona), macros.rs:46-61 and 64-80.
Copies the bytes into a zeroed array of two words when shorter; otherwise slices it directly. The slices of the
full-length branch are halves of the salt (`salt.len() / 2`) resp. at `length / 2`, the same there. -/
def twoWords (w length : Nat) (x : Bytes) : V2 (BitVec w) :=
  if x.length < length then
    let padded := overwrite (List.replicate length 0) 0 x
    ⟨BitVec.ofNat w (ofLE (padded.take (length / 2))), BitVec.ofNat w (ofLE (padded.drop (length / 2)))⟩
  else
    ⟨BitVec.ofNat w (ofLE (x.take (x.length / 2))), BitVec.ofNat w (ofLE (x.drop (x.length / 2)))⟩

/-- `new_with_params`, macros.rs:27-92: `none` is a panic (one of the four assertions). -/
def newWithParams (c : Cfg w) (salt persona : Bytes) (keySize outputSize : Nat) : Option (State w) :=
  if ¬ keySize ≤ c.bytes then none
  else if ¬ outputSize ≤ c.bytes then none
  else
    let length := c.bytes / 4
    if ¬ salt.length ≤ length then none
    else if ¬ persona.length ≤ length then none
    else
      let p0 : BitVec w := (0x01010000 ^^^ (BitVec.ofNat w keySize <<< 8)) ^^^ BitVec.ofNat w outputSize
      let p45 := twoWords w length salt
      let p67 := twoWords w length persona
      let h : V2 (Vec w) := ⟨c.iv0.xor ⟨p0, 0, 0, 0⟩, c.iv1.xor ⟨p45.x0, p45.x1, p67.x0, p67.x1⟩⟩
      some ⟨h, 0, h⟩

/-- `update_blocks`, macros.rs:194-199 (`+=` with release-profile wrapping, see C29). -/
def updateBlocks (c : Cfg w) (s : State w) (blks : List Bytes) : State w :=
  blks.foldl (fun s b =>
    let t := s.t + BitVec.ofNat 64 b.length
    { s with t := t, h := compress c s.h t b 0 0 }) s

/-- `finalize_variable_core` (macros.rs:218-226) with `finalize_with_flag(.., 0, ..)` (macros.rs:94-103). -/
def finalizeFull (c : Cfg w) (s : State w) (buffer : BlockBuffer) : Bytes :=
  let t := s.t + BitVec.ofNat 64 buffer.pos
  let block := (buffer.padWithZeros c.blockSize).1
  let h := compress c s.h t block (BitVec.allOnes w) 0
  bytesOfWordsLE (h.x0.toList ++ h.x1.toList)

/-- `VariableOutputCore::new`, macros.rs:210-215: outer `none` = `Err(InvalidOutputSize)`; the assertions of
`new_with_params` cannot fire here (proved in Verif.Proof.Blake2). -/
def new (c : Cfg w) (outputSize : Nat) : Option (State w) :=
  if outputSize > c.bytes then none else newWithParams c [] [] 0 outputSize

/-- `Reset`, macros.rs:231-234. -/
def reset (s : State w) : State w := { s with h := s.h0, t := 0 }

/-- The variable-output core (macros.rs: `Lazy` :189, block size :185, output size :203, side :207). It has no serialization. -/
def varCore (c : Cfg w) : VarCore (State w) where
  kind := .lazy
  bs := c.blockSize
  outLen := c.bytes
  new := new c
  updateBlocks := updateBlocks c
  finalizeFull := finalizeFull c
  side := .left
  serialize := fun _ => []
  deserialize := fun _ => none
  serLen := 0

/-- `Blake2b<OutSize>` / `Blake2s<OutSize>`, lib.rs:71, :105: `none` when the output size is rejected. -/
def core (c : Cfg w) (n : Nat) : Option (Core (State w) Bytes) := (varCore c).ct n

/-- `Blake2{b,s}::<OutSize>::new_customized(persona)` through `VarOutputCustomized` (macros.rs:260-265): `none` is a panic. -/
def customized (c : Cfg w) (persona : Bytes) (n : Nat) : Option (Core (State w) Bytes) :=
  (newWithParams c [] persona 0 n).map ((varCore c).ctWith n)

/-! ### MAC: `blake2_mac_impl!`, macros.rs:272-489 -/

/-- What a fallible constructor can do. -/
inductive Outcome (α : Type)
  | ok (a : α)
  | err
  | panic
deriving DecidableEq

/-- `Blake2{b,s}Mac<OutSize>`, macros.rs:278-288 (with the `reset` feature). -/
structure Mac (w : Nat) where
  core : State w
  buffer : BlockBuffer
  keyBlock : Option Bytes
deriving DecidableEq

/-- `LazyBuffer::new(&padded_key)`: a buffer holding the given full block. -/
def bufferOf (block : Bytes) : BlockBuffer := ⟨block, block.length⟩

/-- A zeroed array of `n` bytes with `k` copied to its front (`Block::default()` + `copy_from_slice`). -/
def padded (n : Nat) (k : Bytes) : Bytes := overwrite (List.replicate n 0) 0 k

/-- `key.map_or(0, |k| k.len())`, macros.rs:311. -/
def keyLen : Option Bytes → Nat
  | some k => k.length
  | none => 0

/-- `new_with_salt_and_personal`, macros.rs:306-335. The struct fields are evaluated in order, so `new_with_params` comes
before the key block; both panic only through the assertions of `new_with_params` here. -/
def newWithSaltAndPersonal (c : Cfg w) (outSize : Nat) (key : Option Bytes) (salt persona : Bytes) : Outcome (Mac w) :=
  let kl := keyLen key
  let bs := c.blockSize
  let qbs := bs / 4
  if key.isSome ∧ kl = 0 ∨ kl > bs ∨ salt.length > qbs ∨ persona.length > qbs then .err
  else
    let buffer := match key with
      | some k => bufferOf (padded bs k)
      | none => BlockBuffer.empty bs
    match newWithParams c salt persona kl outSize with
    | none => .panic
    | some core => .ok ⟨core, buffer, key.map (padded c.bytes)⟩

/-- `KeyInit::new_from_slice`, macros.rs:357-375. -/
def newFromSlice (c : Cfg w) (outSize : Nat) (key : Bytes) : Outcome (Mac w) :=
  if key.length > c.bytes then .err
  else
    match newWithParams c [] [] key.length outSize with
    | none => .panic
    | some core => .ok ⟨core, bufferOf (padded c.blockSize key), some (padded c.bytes key)⟩

/-- `Update::update`, macros.rs:384-387. -/
def Mac.update (c : Cfg w) (m : Mac w) (input : Bytes) : Mac w :=
  let r := m.buffer.digestBlocks .lazy c.blockSize input (updateBlocks c) m.core
  { m with core := r.2, buffer := r.1 }

/-- The tag written by `finalize_into` (macros.rs:404-409) and `finalize_into_reset` (macros.rs:438-444). -/
def Mac.finalize (c : Cfg w) (outSize : Nat) (m : Mac w) : Bytes := (finalizeFull c m.core m.buffer).take outSize

/-- `Reset::reset`, macros.rs:418-428. -/
def Mac.reset (c : Cfg w) (m : Mac w) : Mac w :=
  { m with
    core := Blake2.reset m.core
    buffer := match m.keyBlock with
      | some k => bufferOf (padded c.blockSize k)
      | none => BlockBuffer.empty c.blockSize }

/-- Calls on a live MAC object. -/
inductive MacOp
  | update (d : Bytes)
  | reset
  | finalizeReset
  | finalizeClone

/-- Run a sequence of calls, collecting the tags (`finalizeClone` is `mac.clone().finalize()`). -/
def Mac.run (c : Cfg w) (outSize : Nat) (m : Mac w) : List MacOp → List Bytes
  | [] => []
  | .update d :: ops => Mac.run c outSize (m.update c d) ops
  | .reset :: ops => Mac.run c outSize (m.reset c) ops
  | .finalizeReset :: ops => m.finalize c outSize :: Mac.run c outSize (m.reset c) ops
  | .finalizeClone :: ops => m.finalize c outSize :: Mac.run c outSize m ops

end Hashes.Blake2
