import Verif.Base.Raw
import Verif.Model.Sha256
import Verif.Model.Sha512
import Verif.Model.Jh
/-
The raw pointers of the portable code: the round constants of SHA-2 (/repo/sha2/src/sha256/soft.rs, /repo/sha2/src/sha512/soft.rs)
are read with `ptr::read`/`read_volatile`, the block of JH (/repo/jh/src/compressor.rs) with `ptr::read_unaligned`.  Arrays indexed only
by literals stay structures.
-/
namespace Hashes.Raw

/-- `r(a.as_ptr().add(i))` for a little-endian word of `w` bits whose type has alignment `align`: `ptr::read`, `ptr::read_volatile`,
and `ptr::read_unaligned` with `align = 1`. -/
def Obj.readAt (o : Obj) (w align i : Nat) : Option (BitVec w) := do
  let p ← add o.region o.addr (w / 8 * i)
  deref o.region align p (w / 8)
  pure (BitVec.ofNat w (ofLE ((o.data.drop (p - o.addr)).take (w / 8))))

end Hashes.Raw

namespace Hashes.Sha256

/-- `add_round_const`, soft.rs:35-57; `k` is `K32`. -/
def addRoundConstC (k : Raw.Obj) (a : V4 W32) (i : Nat) : Option (V4 W32) := do
  let k0 ← k.readAt 32 4 (4 * i + 0)
  let k1 ← k.readAt 32 4 (4 * i + 1)
  let k2 ← k.readAt 32 4 (4 * i + 2)
  let k3 ← k.readAt 32 4 (4 * i + 3)
  pure ⟨a.x0 + k3, a.x1 + k2, a.x2 + k1, a.x3 + k0⟩

/-- `rounds4!`, soft.rs:168-175 -/
def softRounds4C (k : Raw.Obj) (r : Regs) (rest : V4 W32) (i : Nat) : Option Regs := do
  let abef := r.1; let cdgh := r.2
  let t1 ← addRoundConstC k rest i
  let cdgh := sha256DigestRoundX2 cdgh abef t1
  let t2 := sha256swap t1
  let abef := sha256DigestRoundX2 abef cdgh t2
  pure (abef, cdgh)

/-- `sha256_digest_block_u32`, soft.rs:189-228 -/
def digestBlockU32C (k : Raw.Obj) (state : V8 W32) (b : List W32) : Option (V8 W32) := do
  let r : Regs := (⟨state.x0, state.x1, state.x4, state.x5⟩, ⟨state.x2, state.x3, state.x6, state.x7⟩)
  let w0 : V4 W32 := ⟨(b.getD 3 0), (b.getD 2 0), (b.getD 1 0), (b.getD 0 0)⟩
  let w1 : V4 W32 := ⟨(b.getD 7 0), (b.getD 6 0), (b.getD 5 0), (b.getD 4 0)⟩
  let w2 : V4 W32 := ⟨(b.getD 11 0), (b.getD 10 0), (b.getD 9 0), (b.getD 8 0)⟩
  let w3 : V4 W32 := ⟨(b.getD 15 0), (b.getD 14 0), (b.getD 13 0), (b.getD 12 0)⟩
  let r ← softRounds4C k r w0 0
  let r ← softRounds4C k r w1 1
  let r ← softRounds4C k r w2 2
  let r ← softRounds4C k r w3 3
  let w4 := schedule w0 w1 w2 w3; let r ← softRounds4C k r w4 4
  let w0 := schedule w1 w2 w3 w4; let r ← softRounds4C k r w0 5
  let w1 := schedule w2 w3 w4 w0; let r ← softRounds4C k r w1 6
  let w2 := schedule w3 w4 w0 w1; let r ← softRounds4C k r w2 7
  let w3 := schedule w4 w0 w1 w2; let r ← softRounds4C k r w3 8
  let w4 := schedule w0 w1 w2 w3; let r ← softRounds4C k r w4 9
  let w0 := schedule w1 w2 w3 w4; let r ← softRounds4C k r w0 10
  let w1 := schedule w2 w3 w4 w0; let r ← softRounds4C k r w1 11
  let w2 := schedule w3 w4 w0 w1; let r ← softRounds4C k r w2 12
  let w3 := schedule w4 w0 w1 w2; let r ← softRounds4C k r w3 13
  let w4 := schedule w0 w1 w2 w3; let r ← softRounds4C k r w4 14
  let w0 := schedule w1 w2 w3 w4; let r ← softRounds4C k r w0 15
  let abef := r.1; let cdgh := r.2
  pure ⟨state.x0 + abef.x0, state.x1 + abef.x1, state.x2 + cdgh.x0, state.x3 + cdgh.x1,
   state.x4 + abef.x2, state.x5 + abef.x3, state.x6 + cdgh.x2, state.x7 + cdgh.x3⟩

/-- One iteration of `compress`, soft.rs:230-234, with `to_u32s`, /repo/sha2/src/sha256.rs:41-47 -/
def compressBlockC (k : Raw.Obj) (state : V8 W32) (block : Raw.Obj) : Option (V8 W32) := do
  let b ← Rs.load (List.replicate 16 (0 : W32)) block.data 4 (Rs.fromBe 32)
  digestBlockU32C k state b

/-- `compress`, soft.rs:230-234; `kAddr` is the address of `K32`. -/
def compressSoftC (kAddr : Nat) (state : V8 W32) (blks : List Raw.Obj) : Option (V8 W32) :=
  blks.foldlM (compressBlockC ⟨kAddr, bytesOfWordsLE K32⟩) state

end Hashes.Sha256

namespace Hashes.Sha512

/-- `add_rk`, soft.rs:93-105; `k` is `K64`. -/
def addRkC (k : Raw.Obj) (w : V2 W64) (i : Nat) : Option (V2 W64) := do
  let k0 ← k.readAt 64 8 (2 * i + 0)
  let k1 ← k.readAt 64 8 (2 * i + 1)
  pure ⟨w.x0 + k1, w.x1 + k0⟩

/-- `sha512_digest_block_u64`, soft.rs:108-209 -/
def digestBlockU64C (k : Raw.Obj) (state : V8 W64) (b : List W64) : Option (V8 W64) := do
  let r : Regs := ⟨⟨state.x0, state.x4⟩, ⟨state.x1, state.x5⟩, ⟨state.x2, state.x6⟩, ⟨state.x3, state.x7⟩⟩
  let w1 : V2 W64 := ⟨(b.getD 3 0), (b.getD 2 0)⟩; let w0 : V2 W64 := ⟨(b.getD 1 0), (b.getD 0 0)⟩
  let p ← addRkC k w0 0; let q ← addRkC k w1 1; let r := rounds4 r p q
  let w3 : V2 W64 := ⟨(b.getD 7 0), (b.getD 6 0)⟩; let w2 : V2 W64 := ⟨(b.getD 5 0), (b.getD 4 0)⟩
  let p ← addRkC k w2 2; let q ← addRkC k w3 3; let r := rounds4 r p q
  let w5 : V2 W64 := ⟨(b.getD 11 0), (b.getD 10 0)⟩; let w4 : V2 W64 := ⟨(b.getD 9 0), (b.getD 8 0)⟩
  let p ← addRkC k w4 4; let q ← addRkC k w5 5; let r := rounds4 r p q
  let w7 : V2 W64 := ⟨(b.getD 15 0), (b.getD 14 0)⟩; let w6 : V2 W64 := ⟨(b.getD 13 0), (b.getD 12 0)⟩
  let p ← addRkC k w6 6; let q ← addRkC k w7 7; let r := rounds4 r p q
  let w8 := scheduleM w0 w1 w4 w5 w7
  let w9 := scheduleM w1 w2 w5 w6 w8
  let p ← addRkC k w8 8; let q ← addRkC k w9 9; let r := rounds4 r p q
  let w0 := scheduleM w2 w3 w6 w7 w9
  let w1 := scheduleM w3 w4 w7 w8 w0
  let p ← addRkC k w0 10; let q ← addRkC k w1 11; let r := rounds4 r p q
  let w2 := scheduleM w4 w5 w8 w9 w1
  let w3 := scheduleM w5 w6 w9 w0 w2
  let p ← addRkC k w2 12; let q ← addRkC k w3 13; let r := rounds4 r p q
  let w4 := scheduleM w6 w7 w0 w1 w3
  let w5 := scheduleM w7 w8 w1 w2 w4
  let p ← addRkC k w4 14; let q ← addRkC k w5 15; let r := rounds4 r p q
  let w6 := scheduleM w8 w9 w2 w3 w5
  let w7 := scheduleM w9 w0 w3 w4 w6
  let p ← addRkC k w6 16; let q ← addRkC k w7 17; let r := rounds4 r p q
  let w8 := scheduleM w0 w1 w4 w5 w7
  let w9 := scheduleM w1 w2 w5 w6 w8
  let p ← addRkC k w8 18; let q ← addRkC k w9 19; let r := rounds4 r p q
  let w0 := scheduleM w2 w3 w6 w7 w9
  let w1 := scheduleM w3 w4 w7 w8 w0
  let p ← addRkC k w0 20; let q ← addRkC k w1 21; let r := rounds4 r p q
  let w2 := scheduleM w4 w5 w8 w9 w1
  let w3 := scheduleM w5 w6 w9 w0 w2
  let p ← addRkC k w2 22; let q ← addRkC k w3 23; let r := rounds4 r p q
  let w4 := scheduleM w6 w7 w0 w1 w3
  let w5 := scheduleM w7 w8 w1 w2 w4
  let p ← addRkC k w4 24; let q ← addRkC k w5 25; let r := rounds4 r p q
  let w6 := scheduleM w8 w9 w2 w3 w5
  let w7 := scheduleM w9 w0 w3 w4 w6
  let p ← addRkC k w6 26; let q ← addRkC k w7 27; let r := rounds4 r p q
  let w8 := scheduleM w0 w1 w4 w5 w7
  let w9 := scheduleM w1 w2 w5 w6 w8
  let p ← addRkC k w8 28; let q ← addRkC k w9 29; let r := rounds4 r p q
  let w0 := scheduleM w2 w3 w6 w7 w9
  let w1 := scheduleM w3 w4 w7 w8 w0
  let p ← addRkC k w0 30; let q ← addRkC k w1 31; let r := rounds4 r p q
  let w2 := scheduleM w4 w5 w8 w9 w1
  let w3 := scheduleM w5 w6 w9 w0 w2
  let p ← addRkC k w2 32; let q ← addRkC k w3 33; let r := rounds4 r p q
  let w4 := scheduleM w6 w7 w0 w1 w3
  let w5 := scheduleM w7 w8 w1 w2 w4
  let p ← addRkC k w4 34; let q ← addRkC k w5 35; let r := rounds4 r p q
  let w6 := scheduleM w8 w9 w2 w3 w5
  let w7 := scheduleM w9 w0 w3 w4 w6
  let p ← addRkC k w6 36; let q ← addRkC k w7 37; let r := rounds4 r p q
  let w8 := scheduleM w0 w1 w4 w5 w7
  let w9 := scheduleM w1 w2 w5 w6 w8
  let p ← addRkC k w8 38; let q ← addRkC k w9 39; let r := rounds4 r p q
  pure ⟨state.x0 + r.ae.x0, state.x1 + r.bf.x0, state.x2 + r.cg.x0, state.x3 + r.dh.x0,
   state.x4 + r.ae.x1, state.x5 + r.bf.x1, state.x6 + r.cg.x1, state.x7 + r.dh.x1⟩

/-- One iteration of `compress`, soft.rs:211-215, with `to_u64s`, /repo/sha2/src/sha512.rs:41-47 -/
def compressBlockC (k : Raw.Obj) (state : V8 W64) (block : Raw.Obj) : Option (V8 W64) := do
  let b ← Rs.load (List.replicate 16 (0 : W64)) block.data 8 (Rs.fromBe 64)
  digestBlockU64C k state b

/-- `compress`, soft.rs:211-215; `kAddr` is the address of `K64`. -/
def compressSoftC (kAddr : Nat) (state : V8 W64) (blks : List Raw.Obj) : Option (V8 W64) :=
  blks.foldlM (compressBlockC ⟨kAddr, bytesOfWordsLE K64⟩) state

end Hashes.Sha512

namespace Hashes.Jh

/-- The `match j` of compressor.rs:121-130; every other `j` is `unreachable!()`. -/
def swapC (j : Nat) : Option (W128 → W128) :=
  match j with
  | 0 => some (swap 0)
  | 1 => some (swap 1)
  | 2 => some (swap 2)
  | 3 => some (swap 3)
  | 4 => some (swap 4)
  | 5 => some (swap 5)
  | 6 => some (swap 6)
  | _ => none

/-- The body of `unroll7!`, compressor.rs:118-132, on a chunk of the table of round constants. -/
def roundC (rc : List Nat) (y : V8 W128) (j : Nat) : Option (V8 W128) := do
  let c ← Rs.idx rc j
  let y := ss y (wordLE 128 (beBytes 32 c) 0) (wordLE 128 (beBytes 32 c) 1)
  let y := l y
  let f ← swapC j
  pure ⟨y.x0, f y.x1, y.x2, f y.x3, y.x4, f y.x5, y.x6, f y.x7⟩

/-- `for rc in E8_BITSLICE_ROUNDCONSTANT.chunks_exact(7)`, compressor.rs:117-133 -/
def e8C (y : V8 W128) : Option (V8 W128) := (chunks 7 rcNat).foldlM (fun y rc => Rs.loop 7 y (roundC rc)) y

/-- `f8_impl`, compressor.rs:98-150; `data` is a pointer to the bytes of the block. -/
def f8C (y : V8 W128) (data : Raw.Obj) : Option (V8 W128) := do
  let d0 ← data.readAt 128 1 0
  let d1 ← data.readAt 128 1 1
  let d2 ← data.readAt 128 1 2
  let d3 ← data.readAt 128 1 3
  let y ← e8C ⟨y.x0 ^^^ d0, y.x1 ^^^ d1, y.x2 ^^^ d2, y.x3 ^^^ d3, y.x4, y.x5, y.x6, y.x7⟩
  let d0 ← data.readAt 128 1 0
  let d1 ← data.readAt 128 1 1
  let d2 ← data.readAt 128 1 2
  let d3 ← data.readAt 128 1 3
  pure ⟨y.x0, y.x1, y.x2, y.x3, y.x4 ^^^ d0, y.x5 ^^^ d1, y.x6 ^^^ d2, y.x7 ^^^ d3⟩

end Hashes.Jh
