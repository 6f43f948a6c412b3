import Verif.Base.Leak
import Verif.Checked.Blake2
/- Blake2 with what an observer of the memory accesses and branches sees (Base/Leak.lean); written by tools/gen_leak.py from
Verif/Checked/Blake2.lean, which says what is modelled. -/
namespace Hashes.Blake2
open Leak
variable {w : Nat}

/-- `gather`, simd.rs:48-50. -/
def gatherL (m : List (BitVec w)) (i0 i1 i2 i3 : Nat) : Leak (Vec w) := do
  let a ← idx m i0
  let b ← idx m i1
  let c ← idx m i2
  let d ← idx m i3
  pure ⟨a, b, c, d⟩

/-- One argument `gather(m, s[i0], s[i1], s[i2], s[i3])` of `round`, macros.rs:132-137. -/
def pickL (m : List (BitVec w)) (s : List Nat) (i0 i1 i2 i3 : Nat) : Leak (Vec w) := do
  let a ← idx s i0
  let b ← idx s i1
  let c ← idx s i2
  let d ← idx s i3
  gatherL m a b c d

/-- `round`, macros.rs:131-139. -/
def roundL (c : Cfg w) (m : List (BitVec w)) (s : List Nat) (v : V4 (Vec w)) : Leak (V4 (Vec w)) := do
  let g ← pickL m s 0 2 4 6
  let v := quarterRound v c.R1 c.R2 g
  let g ← pickL m s 1 3 5 7
  let v := quarterRound v c.R3 c.R4 g
  let v := shuffle v
  let g ← pickL m s 8 10 12 14
  let v := quarterRound v c.R1 c.R2 g
  let g ← pickL m s 9 11 13 15
  let v := quarterRound v c.R3 c.R4 g
  pure (unshuffle v)

/-- `round(&mut v, &m, &SIGMA[i])`, macros.rs:161-174. -/
def sigmaRoundL (c : Cfg w) (m : List (BitVec w)) (i : Nat) (v : V4 (Vec w)) : Leak (V4 (Vec w)) := do
  let s ← idx SIGMA i
  roundL c m s v

/-- The high word of the counter, macros.rs:149-153, with `unreachable!()` for other sizes. -/
def t1L (c : Cfg w) (t : W64) : Leak (BitVec w) :=
  branch (c.bytes = 64) (pure 0) (branch (c.bytes = 32) (do
    let y ← shr t 32
    pure (y.setWidth w)) panic)

/-- The two further rounds of BLAKE2b, macros.rs:171-174. -/
def extraL (c : Cfg w) (m : List (BitVec w)) (v : V4 (Vec w)) : Leak (V4 (Vec w)) :=
  branch (c.bytes = 64) (do
    let v ← sigmaRoundL c m 0 v
    sigmaRoundL c m 1 v) (pure v)

/-- `compress`, macros.rs:105-179. -/
def compressL (c : Cfg w) (h : V2 (Vec w)) (t : W64) (block : Bytes) (f0 f1 : BitVec w) : Leak (V2 (Vec w)) := do
  let m ← load (List.replicate 16 0) block (w / 8) (fromLe w)
  let t0 : BitVec w := t.setWidth w
  let t1 ← t1L c t
  let v : V4 (Vec w) := ⟨h.x0, h.x1, c.iv0, c.iv1.xor ⟨t0, t1, f0, f1⟩⟩
  let v ← sigmaRoundL c m 0 v
  let v ← sigmaRoundL c m 1 v
  let v ← sigmaRoundL c m 2 v
  let v ← sigmaRoundL c m 3 v
  let v ← sigmaRoundL c m 4 v
  let v ← sigmaRoundL c m 5 v
  let v ← sigmaRoundL c m 6 v
  let v ← sigmaRoundL c m 7 v
  let v ← sigmaRoundL c m 8 v
  let v ← sigmaRoundL c m 9 v
  let v ← extraL c m v
  pure ⟨h.x0.xor (v.x0.xor v.x2), h.x1.xor (v.x1.xor v.x3)⟩

/-- One block of `update_blocks`, macros.rs:194-199. -/
def updateBlockL (c : Cfg w) (s : State w) (b : Bytes) : Leak (State w) := do
  let t ← add s.t (BitVec.ofNat 64 b.length)
  let h ← compressL c s.h t b 0 0
  pure { s with t := t, h := h }

/-- `finalize_variable_core` and `finalize_with_flag`, macros.rs:94-103, :218-226. -/
def finalizeL (c : Cfg w) (s : State w) (buffer : BlockBuffer) (out : Bytes) : Leak Bytes := do
  let t ← add s.t (BitVec.ofNat 64 buffer.pos)
  let block := (buffer.padWithZeros c.blockSize).1
  let h ← compressL c s.h t block (BitVec.allOnes w) 0
  copy out 0 out.length (bytesOfWordsLE (h.x0.toList ++ h.x1.toList))

end Hashes.Blake2
