import Verif.Base.Vec
import Verif.Model.VarCore
/- Model of SHA-224/SHA-256: /repo/sha2/src/{core_api,consts,sha256}.rs and /repo/sha2/src/sha256/soft.rs. -/
namespace Hashes.Sha256

/-- `H256_224`, /repo/sha2/src/consts.rs:6-9. -/
def H256_224 : V8 W32 :=
  ⟨0xc1059ed8, 0x367cd507, 0x3070dd17, 0xf70e5939, 0xffc00b31, 0x68581511, 0x64f98fa7, 0xbefa4fa4⟩

/-- `H256_256`, /repo/sha2/src/consts.rs:11-14. -/
def H256_256 : V8 W32 :=
  ⟨0x6a09e667, 0xbb67ae85, 0x3c6ef372, 0xa54ff53a, 0x510e527f, 0x9b05688c, 0x1f83d9ab, 0x5be0cd19⟩

/-- `K32`, /repo/sha2/src/consts.rs:37-46. -/
def K32 : List W32 := [
  0x428a2f98, 0x71374491, 0xb5c0fbcf, 0xe9b5dba5, 0x3956c25b, 0x59f111f1, 0x923f82a4, 0xab1c5ed5,
  0xd807aa98, 0x12835b01, 0x243185be, 0x550c7dc3, 0x72be5d74, 0x80deb1fe, 0x9bdc06a7, 0xc19bf174,
  0xe49b69c1, 0xefbe4786, 0x0fc19dc6, 0x240ca1cc, 0x2de92c6f, 0x4a7484aa, 0x5cb0a9dc, 0x76f988da,
  0x983e5152, 0xa831c66d, 0xb00327c8, 0xbf597fc7, 0xc6e00bf3, 0xd5a79147, 0x06ca6351, 0x14292967,
  0x27b70a85, 0x2e1b2138, 0x4d2c6dfc, 0x53380d13, 0x650a7354, 0x766a0abb, 0x81c2c92e, 0x92722c85,
  0xa2bfe8a1, 0xa81a664b, 0xc24b8b70, 0xc76c51a3, 0xd192e819, 0xd6990624, 0xf40e3585, 0x106aa070,
  0x19a4c116, 0x1e376c08, 0x2748774c, 0x34b0bcb5, 0x391c0cb3, 0x4ed8aa4a, 0x5b9cca4f, 0x682e6ff3,
  0x748f82ee, 0x78a5636f, 0x84c87814, 0x8cc70208, 0x90befffa, 0xa4506ceb, 0xbef9a3f7, 0xc67178f2]

/-- `*K32.as_ptr().add(n)`; all uses have `n < 64` (soft.rs:49, indices 4·i+j with i ≤ 15, j ≤ 3). -/
def k32 (n : Nat) : W32 := K32.getD n 0

/-! ### soft.rs -/

/-- soft.rs:5-7 -/
def shr (v : V4 W32) (o : Nat) : V4 W32 := v.map fun (x : W32) => x >>> o
/-- soft.rs:10-12 -/
def shl (v : V4 W32) (o : Nat) : V4 W32 := v.map fun (x : W32) => x <<< o
/-- soft.rs:15-17 -/
def or (a b : V4 W32) : V4 W32 := a.zip (· ||| ·) b
/-- soft.rs:20-22 -/
def xor (a b : V4 W32) : V4 W32 := a.zip (· ^^^ ·) b
/-- soft.rs:25-32 -/
def add (a b : V4 W32) : V4 W32 := a.zip (· + ·) b

/-- soft.rs:35-57 -/
def addRoundConst (a : V4 W32) (i : Nat) : V4 W32 :=
  let k := fun j => k32 (4 * i + j)
  ⟨a.x0 + k 3, a.x1 + k 2, a.x2 + k 1, a.x3 + k 0⟩

/-- soft.rs:59-61 -/
def sha256load (v2 v3 : V4 W32) : V4 W32 := ⟨v3.x3, v2.x0, v2.x1, v2.x2⟩

/-- soft.rs:63-65 -/
def sha256swap (v0 : V4 W32) : V4 W32 := ⟨v0.x2, v0.x3, v0.x0, v0.x1⟩

/-- soft.rs:70-75 -/
def sigma0x4 (x : V4 W32) : V4 W32 :=
  let t1 := or (shr x 7) (shl x 25)
  let t2 := or (shr x 18) (shl x 14)
  let t3 := shr x 3
  xor (xor t1 t2) t3

/-- soft.rs:67-78 -/
def sha256msg1 (v0 v1 : V4 W32) : V4 W32 := add v0 (sigma0x4 (sha256load v0 v1))

/-- soft.rs:81-85 -/
def sigma1 (a : W32) : W32 := a.rotateRight 17 ^^^ a.rotateRight 19 ^^^ (a >>> 10)

/-- soft.rs:80-96 -/
def sha256msg2 (v4 v3 : V4 W32) : V4 W32 :=
  let x3 := v4.x0; let x2 := v4.x1; let x1 := v4.x2; let x0 := v4.x3
  let w15 := v3.x0; let w14 := v3.x1
  let w16 := x0 + sigma1 w14
  let w17 := x1 + sigma1 w15
  let w18 := x2 + sigma1 w16
  let w19 := x3 + sigma1 w17
  ⟨w19, w18, w17, w16⟩

/-- soft.rs:99-103 -/
def bigSigma0 (a : W32) : W32 := a.rotateRight 2 ^^^ a.rotateRight 13 ^^^ a.rotateRight 22
/-- soft.rs:104-108 -/
def bigSigma1 (a : W32) : W32 := a.rotateRight 6 ^^^ a.rotateRight 11 ^^^ a.rotateRight 25
/-- soft.rs:109-113 (choose) -/
def bool3ary_202 (a b c : W32) : W32 := c ^^^ (a &&& (b ^^^ c))
/-- soft.rs:114-118 (majority) -/
def bool3ary_232 (a b c : W32) : W32 := (a &&& b) ^^^ (a &&& c) ^^^ (b &&& c)

/-- soft.rs:98-159 -/
def sha256DigestRoundX2 (cdgh abef wk : V4 W32) : V4 W32 :=
  let wk1 := wk.x2; let wk0 := wk.x3
  let a0 := abef.x0; let b0 := abef.x1; let e0 := abef.x2; let f0 := abef.x3
  let c0 := cdgh.x0; let d0 := cdgh.x1; let g0 := cdgh.x2; let h0 := cdgh.x3
  let x0 := bigSigma1 e0 + bool3ary_202 e0 f0 g0 + wk0 + h0
  let y0 := bigSigma0 a0 + bool3ary_232 a0 b0 c0
  let a1 := x0 + y0; let b1 := a0; let c1 := b0; let d1 := c0
  let e1 := x0 + d0; let f1 := e0; let g1 := f0; let h1 := g0
  let x1 := bigSigma1 e1 + bool3ary_202 e1 f1 g1 + wk1 + h1
  let y1 := bigSigma0 a1 + bool3ary_232 a1 b1 c1
  let a2 := x1 + y1; let b2 := a1
  let e2 := x1 + d1; let f2 := e1
  ⟨a2, b2, e2, f2⟩

/-- soft.rs:161-166 -/
def schedule (v0 v1 v2 v3 : V4 W32) : V4 W32 :=
  let t1 := sha256msg1 v0 v1
  let t2 := sha256load v2 v3
  let t3 := add t1 t2
  sha256msg2 t3 v3

/-- The two mutable variables `abef`, `cdgh` of `sha256_digest_block_u32`. -/
abbrev Regs := V4 W32 × V4 W32

/-- `rounds4!`, soft.rs:168-175. Argument and result: `(abef, cdgh)`. -/
def rounds4 (r : Regs) (rest : V4 W32) (i : Nat) : Regs :=
  let abef := r.1; let cdgh := r.2
  let t1 := addRoundConst rest i
  let cdgh := sha256DigestRoundX2 cdgh abef t1
  let t2 := sha256swap t1
  let abef := sha256DigestRoundX2 abef cdgh t2
  (abef, cdgh)

/-- `sha256_digest_block_u32`, soft.rs:189-228.  `schedule_rounds4!(abef, cdgh, w0, .., w3, w4, i)`
(soft.rs:177-186) is `w4 = schedule(w0, .., w3); rounds4!(abef, cdgh, w4, i)`. -/
def digestBlockU32 (state : V8 W32) (block : Nat → W32) : V8 W32 :=
  let r : Regs := (⟨state.x0, state.x1, state.x4, state.x5⟩, ⟨state.x2, state.x3, state.x6, state.x7⟩)
  let w0 : V4 W32 := ⟨block 3, block 2, block 1, block 0⟩
  let w1 : V4 W32 := ⟨block 7, block 6, block 5, block 4⟩
  let w2 : V4 W32 := ⟨block 11, block 10, block 9, block 8⟩
  let w3 : V4 W32 := ⟨block 15, block 14, block 13, block 12⟩
  let r := rounds4 r w0 0
  let r := rounds4 r w1 1
  let r := rounds4 r w2 2
  let r := rounds4 r w3 3
  let w4 := schedule w0 w1 w2 w3; let r := rounds4 r w4 4
  let w0 := schedule w1 w2 w3 w4; let r := rounds4 r w0 5
  let w1 := schedule w2 w3 w4 w0; let r := rounds4 r w1 6
  let w2 := schedule w3 w4 w0 w1; let r := rounds4 r w2 7
  let w3 := schedule w4 w0 w1 w2; let r := rounds4 r w3 8
  let w4 := schedule w0 w1 w2 w3; let r := rounds4 r w4 9
  let w0 := schedule w1 w2 w3 w4; let r := rounds4 r w0 10
  let w1 := schedule w2 w3 w4 w0; let r := rounds4 r w1 11
  let w2 := schedule w3 w4 w0 w1; let r := rounds4 r w2 12
  let w3 := schedule w4 w0 w1 w2; let r := rounds4 r w3 13
  let w4 := schedule w0 w1 w2 w3; let r := rounds4 r w4 14
  let w0 := schedule w1 w2 w3 w4; let r := rounds4 r w0 15
  let abef := r.1; let cdgh := r.2
  ⟨state.x0 + abef.x0, state.x1 + abef.x1, state.x2 + cdgh.x0, state.x3 + cdgh.x1,
   state.x4 + abef.x2, state.x5 + abef.x3, state.x6 + cdgh.x2, state.x7 + cdgh.x3⟩

/-- `to_u32s`, /repo/sha2/src/sha256.rs:41-47 (word `i` of the block, big endian). -/
def toU32s (block : Bytes) : Nat → W32 := wordBE 32 block

/-- `soft::compress`, soft.rs:230-234. -/
def compressSoft (state : V8 W32) (blks : List Bytes) : V8 W32 :=
  blks.foldl (fun s b => digestBlockU32 s (toU32s b)) state

/-! ### core_api.rs -/

/-- `Sha256VarCore`, core_api.rs:23-26. -/
@[ext] structure State where
  state : V8 W32
  blockLen : W64
deriving DecidableEq

/-- `new(output_size)`, core_api.rs:55-63. -/
def new (outputSize : Nat) : Option State :=
  match outputSize with
  | 28 => some ⟨H256_224, 0⟩
  | 32 => some ⟨H256_256, 0⟩
  | _ => none

/-- `update_blocks`, core_api.rs:40-44 (`+=` with release-profile wrapping, see C29). -/
def updateBlocks (s : State) (blks : List Bytes) : State :=
  ⟨compressSoft s.state blks, s.blockLen + BitVec.ofNat 64 blks.length⟩

/-- `finalize_variable_core`, core_api.rs:66-74. -/
def finalizeFull (s : State) (buffer : BlockBuffer) : Bytes :=
  let bs : W64 := 64
  let bitLen : W64 := 8 * (BitVec.ofNat 64 buffer.pos + bs * s.blockLen)
  let st := buffer.len64PaddingBE 64 bitLen (fun st b => compressSoft st [b]) s.state
  bytesOfWordsBE st.toList

/-- `serialize`, core_api.rs:107-116. -/
def serialize (s : State) : Bytes := bytesOfWordsLE s.state.toList ++ leBytes 8 s.blockLen.toNat

/-- `deserialize`, core_api.rs:118-131 (the argument has the fixed length 40; anything else is a type
error in Rust, `none` here). -/
def deserialize (raw : Bytes) : Option State :=
  if raw.length = 40 then
    some ⟨V8.ofFn (wordLE 32 raw), BitVec.ofNat 64 (ofLE (raw.drop 32))⟩
  else none

/-- `Sha256VarCore` as a `VariableOutputCore` (block size core_api.rs:31, `Eager` :35, output size :48,
truncation side :52, `SerializedStateSize = U40` :105). -/
def varCore : VarCore State where
  kind := .eager
  bs := 64
  outLen := 32
  new := new
  updateBlocks := updateBlocks
  finalizeFull := finalizeFull
  side := .left
  serialize := serialize
  deserialize := deserialize
  serLen := 40

/-- `Sha256`, /repo/sha2/src/lib.rs:51. -/
def sha256 : Core State Bytes := varCore.ctWith 32 ⟨H256_256, 0⟩
/-- `Sha224`, /repo/sha2/src/lib.rs:49. -/
def sha224 : Core State Bytes := varCore.ctWith 28 ⟨H256_224, 0⟩

end Hashes.Sha256
