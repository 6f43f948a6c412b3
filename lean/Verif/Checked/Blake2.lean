import Verif.Base.Rust
import Verif.Model.Blake2
/-
BLAKE2 with Rust's run-time checks: /repo/blake2/src/macros.rs.  `none` is a panic.  The operations on vectors of four words
(wrapping additions, xor, rotations by constants, shuffles) cannot panic and are those of the model.
-/
namespace Hashes.Blake2
open Rs
variable {w : Nat}

/-- `gather`, simd.rs:48-50. -/
def gatherC (m : List (BitVec w)) (i0 i1 i2 i3 : Nat) : Option (Vec w) := do
  let a ← idx m i0
  let b ← idx m i1
  let c ← idx m i2
  let d ← idx m i3
  pure ⟨a, b, c, d⟩

/-- One argument `gather(m, s[i0], s[i1], s[i2], s[i3])` of `round`, macros.rs:132-137. -/
def pickC (m : List (BitVec w)) (s : List Nat) (i0 i1 i2 i3 : Nat) : Option (Vec w) := do
  let a ← idx s i0
  let b ← idx s i1
  let c ← idx s i2
  let d ← idx s i3
  gatherC m a b c d

/-- `round`, macros.rs:131-139. -/
def roundC (c : Cfg w) (m : List (BitVec w)) (s : List Nat) (v : V4 (Vec w)) : Option (V4 (Vec w)) := do
  let g ← pickC m s 0 2 4 6
  let v := quarterRound v c.R1 c.R2 g
  let g ← pickC m s 1 3 5 7
  let v := quarterRound v c.R3 c.R4 g
  let v := shuffle v
  let g ← pickC m s 8 10 12 14
  let v := quarterRound v c.R1 c.R2 g
  let g ← pickC m s 9 11 13 15
  let v := quarterRound v c.R3 c.R4 g
  pure (unshuffle v)

/-- `round(&mut v, &m, &SIGMA[i])`, macros.rs:161-174. -/
def sigmaRoundC (c : Cfg w) (m : List (BitVec w)) (i : Nat) (v : V4 (Vec w)) : Option (V4 (Vec w)) := do
  let s ← idx SIGMA i
  roundC c m s v

/-- The high word of the counter, macros.rs:149-153, with `unreachable!()` for other sizes. -/
def t1C (c : Cfg w) (t : W64) : Option (BitVec w) :=
  if c.bytes = 64 then some 0
  else if c.bytes = 32 then do
    let y ← shr t 32
    pure (y.setWidth w)
  else none

/-- The two further rounds of BLAKE2b, macros.rs:171-174. -/
def extraC (c : Cfg w) (m : List (BitVec w)) (v : V4 (Vec w)) : Option (V4 (Vec w)) :=
  if c.bytes = 64 then do
    let v ← sigmaRoundC c m 0 v
    sigmaRoundC c m 1 v
  else some v

/-- `compress`, macros.rs:105-179. -/
def compressC (c : Cfg w) (h : V2 (Vec w)) (t : W64) (block : Bytes) (f0 f1 : BitVec w) : Option (V2 (Vec w)) := do
  let m ← load (List.replicate 16 0) block (w / 8) (fromLe w)
  let t0 : BitVec w := t.setWidth w
  let t1 ← t1C c t
  let v : V4 (Vec w) := ⟨h.x0, h.x1, c.iv0, c.iv1.xor ⟨t0, t1, f0, f1⟩⟩
  let v ← sigmaRoundC c m 0 v
  let v ← sigmaRoundC c m 1 v
  let v ← sigmaRoundC c m 2 v
  let v ← sigmaRoundC c m 3 v
  let v ← sigmaRoundC c m 4 v
  let v ← sigmaRoundC c m 5 v
  let v ← sigmaRoundC c m 6 v
  let v ← sigmaRoundC c m 7 v
  let v ← sigmaRoundC c m 8 v
  let v ← sigmaRoundC c m 9 v
  let v ← extraC c m v
  pure ⟨h.x0.xor (v.x0.xor v.x2), h.x1.xor (v.x1.xor v.x3)⟩

/-- The two words of the salt or of the personalisation, macros.rs:46-61 and :64-80; `full` is the end of the first slice of the
full-length branch: `salt.len() / 2` for the salt, `length / 2` for the personalisation. -/
def twoWordsC (w length full : Nat) (x : Bytes) : Option (V2 (BitVec w)) :=
  if x.length < length then do
    let padded ← loop x.length (List.replicate length 0) fun p i => do
      let y ← idx x i
      upd p i y
    let a ← slice padded 0 (length / 2)
    let a ← fromLe w a
    let b ← slice padded (length / 2) padded.length
    let b ← fromLe w b
    pure ⟨a, b⟩
  else do
    let a ← slice x 0 full
    let a ← fromLe w a
    let b ← slice x full x.length
    let b ← fromLe w b
    pure ⟨a, b⟩

/-- `new_with_params`, macros.rs:27-92. -/
def newWithParamsC (c : Cfg w) (salt persona : Bytes) (keySize outputSize : Nat) : Option (State w) := do
  check (keySize ≤ c.bytes)
  check (outputSize ≤ c.bytes)
  let length := c.bytes / 4
  check (salt.length ≤ length)
  check (persona.length ≤ length)
  let k ← shl (BitVec.ofNat w keySize) 8
  let p0 : BitVec w := (0x01010000 ^^^ k) ^^^ BitVec.ofNat w outputSize
  let p45 ← twoWordsC w length (salt.length / 2) salt
  let p67 ← twoWordsC w length (length / 2) persona
  let h : V2 (Vec w) := ⟨c.iv0.xor ⟨p0, 0, 0, 0⟩, c.iv1.xor ⟨p45.x0, p45.x1, p67.x0, p67.x1⟩⟩
  pure ⟨h, 0, h⟩

/-- One block of `update_blocks`, macros.rs:194-199. -/
def updateBlockC (c : Cfg w) (s : State w) (b : Bytes) : Option (State w) := do
  let t ← add s.t (BitVec.ofNat 64 b.length)
  let h ← compressC c s.h t b 0 0
  pure { s with t := t, h := h }

/-- `finalize_variable_core` and `finalize_with_flag`, macros.rs:94-103, :218-226. -/
def finalizeC (c : Cfg w) (s : State w) (buffer : BlockBuffer) (out : Bytes) : Option Bytes := do
  let t ← add s.t (BitVec.ofNat 64 buffer.pos)
  let block := (buffer.padWithZeros c.blockSize).1
  let h ← compressC c s.h t block (BitVec.allOnes w) 0
  copy out 0 out.length (bytesOfWordsLE (h.x0.toList ++ h.x1.toList))

/-- The key block `t[..kl].copy_from_slice(k)` of `n` bytes, macros.rs:319-321, :327-331, :361-369, :421-423. -/
def paddedC (n : Nat) (k : Bytes) : Option Bytes := copy (List.replicate n 0) 0 k.length k

/-- `key_block`, macros.rs:327-331. -/
def keyBlockC (n : Nat) : Option Bytes → Option (Option Bytes)
  | some k => do
    let t ← paddedC n k
    pure (some t)
  | none => some none

/-- `buffer`, macros.rs:318-324. -/
def keyBufferC (n : Nat) : Option Bytes → Option BlockBuffer
  | some k => do
    let t ← paddedC n k
    pure (bufferOf t)
  | none => some (BlockBuffer.empty n)

/-- `new_with_salt_and_personal`, macros.rs:306-335: outer `none` is a panic, inner `none` is `Err(InvalidLength)`. -/
def newWithSaltAndPersonalC (c : Cfg w) (outSize : Nat) (key : Option Bytes) (salt persona : Bytes) : Option (Option (Mac w)) :=
  let kl := keyLen key
  let bs := c.blockSize
  let qbs := bs / 4
  if key.isSome ∧ kl = 0 ∨ kl > bs ∨ salt.length > qbs ∨ persona.length > qbs then some none
  else do
    let buffer ← keyBufferC bs key
    let core ← newWithParamsC c salt persona kl outSize
    let kb ← keyBlockC c.bytes key
    pure (some ⟨core, buffer, kb⟩)

/-- `new_from_slice`, macros.rs:357-375. -/
def newFromSliceC (c : Cfg w) (outSize : Nat) (key : Bytes) : Option (Option (Mac w)) :=
  if key.length > c.bytes then some none
  else do
    let block ← paddedC c.blockSize key
    let core ← newWithParamsC c [] [] key.length outSize
    let kb ← paddedC c.bytes key
    pure (some ⟨core, bufferOf block, some kb⟩)

end Hashes.Blake2
