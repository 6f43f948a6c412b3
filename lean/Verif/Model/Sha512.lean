import Verif.Base.Vec
import Verif.Model.VarCore
/- Model of SHA-384/SHA-512/SHA-512/t: /repo/sha2/src/{core_api,consts,sha512}.rs and
/repo/sha2/src/sha512/soft.rs. -/
namespace Hashes.Sha512

/-- `H512_224`, /repo/sha2/src/consts.rs:16-19. -/
def H512_224 : V8 W64 := ⟨0x8c3d37c819544da2, 0x73e1996689dcd4d6, 0x1dfab7ae32ff9c82, 0x679dd514582f9fcf, 0x0f6d2b697bd44da8, 0x77e36f7304c48942, 0x3f9d85a86a1d36c8, 0x1112e6ad91d692a1⟩
/-- `H512_256`, /repo/sha2/src/consts.rs:21-24. -/
def H512_256 : V8 W64 := ⟨0x22312194fc2bf72c, 0x9f555fa3c84c64c2, 0x2393b86b6f53b151, 0x963877195940eabd, 0x96283ee2a88effe3, 0xbe5e1e2553863992, 0x2b0199fc2c85b8aa, 0x0eb72ddc81c52ca2⟩
/-- `H512_384`, /repo/sha2/src/consts.rs:26-29. -/
def H512_384 : V8 W64 := ⟨0xcbbb9d5dc1059ed8, 0x629a292a367cd507, 0x9159015a3070dd17, 0x152fecd8f70e5939, 0x67332667ffc00b31, 0x8eb44a8768581511, 0xdb0c2e0d64f98fa7, 0x47b5481dbefa4fa4⟩
/-- `H512_512`, /repo/sha2/src/consts.rs:31-34. -/
def H512_512 : V8 W64 := ⟨0x6a09e667f3bcc908, 0xbb67ae8584caa73b, 0x3c6ef372fe94f82b, 0xa54ff53a5f1d36f1, 0x510e527fade682d1, 0x9b05688c2b3e6c1f, 0x1f83d9abfb41bd6b, 0x5be0cd19137e2179⟩

/-- `K64`, /repo/sha2/src/consts.rs:49-70. -/
def K64 : List W64 := [
  0x428a2f98d728ae22, 0x7137449123ef65cd, 0xb5c0fbcfec4d3b2f, 0xe9b5dba58189dbbc,
  0x3956c25bf348b538, 0x59f111f1b605d019, 0x923f82a4af194f9b, 0xab1c5ed5da6d8118,
  0xd807aa98a3030242, 0x12835b0145706fbe, 0x243185be4ee4b28c, 0x550c7dc3d5ffb4e2,
  0x72be5d74f27b896f, 0x80deb1fe3b1696b1, 0x9bdc06a725c71235, 0xc19bf174cf692694,
  0xe49b69c19ef14ad2, 0xefbe4786384f25e3, 0x0fc19dc68b8cd5b5, 0x240ca1cc77ac9c65,
  0x2de92c6f592b0275, 0x4a7484aa6ea6e483, 0x5cb0a9dcbd41fbd4, 0x76f988da831153b5,
  0x983e5152ee66dfab, 0xa831c66d2db43210, 0xb00327c898fb213f, 0xbf597fc7beef0ee4,
  0xc6e00bf33da88fc2, 0xd5a79147930aa725, 0x06ca6351e003826f, 0x142929670a0e6e70,
  0x27b70a8546d22ffc, 0x2e1b21385c26c926, 0x4d2c6dfc5ac42aed, 0x53380d139d95b3df,
  0x650a73548baf63de, 0x766a0abb3c77b2a8, 0x81c2c92e47edaee6, 0x92722c851482353b,
  0xa2bfe8a14cf10364, 0xa81a664bbc423001, 0xc24b8b70d0f89791, 0xc76c51a30654be30,
  0xd192e819d6ef5218, 0xd69906245565a910, 0xf40e35855771202a, 0x106aa07032bbd1b8,
  0x19a4c116b8d2d0c8, 0x1e376c085141ab53, 0x2748774cdf8eeb99, 0x34b0bcb5e19b48a8,
  0x391c0cb3c5c95a63, 0x4ed8aa4ae3418acb, 0x5b9cca4f7763e373, 0x682e6ff3d6b2b8a3,
  0x748f82ee5defb2fc, 0x78a5636f43172f60, 0x84c87814a1f0ab72, 0x8cc702081a6439ec,
  0x90befffa23631e28, 0xa4506cebde82bde9, 0xbef9a3f7b2c67915, 0xc67178f2e372532b,
  0xca273eceea26619c, 0xd186b8c721c0c207, 0xeada7dd6cde0eb1e, 0xf57d4f7fee6ed178,
  0x06f067aa72176fba, 0x0a637dc5a2c898a6, 0x113f9804bef90dae, 0x1b710b35131c471b,
  0x28db77f523047d84, 0x32caab7b40c72493, 0x3c9ebe0a15c9bebc, 0x431d67c49c100d4c,
  0x4cc5d4becb3e42b6, 0x597f299cfc657e2a, 0x5fcb6fab3ad6faec, 0x6c44198c4a475817]

/-- `K64[n]` (soft.rs:94-101), all uses have `n < 80`. -/
def k64 (n : Nat) : W64 := K64.getD n 0

/-! ### soft.rs -/

/-- `sha512load`, soft.rs:5-7 -/
def sha512load (v0 v1 : V2 W64) : V2 W64 := ⟨v1.x1, v0.x0⟩

/-- soft.rs:12-14 -/
def sigma0 (x : W64) : W64 := x.rotateRight 1 ^^^ x.rotateRight 8 ^^^ (x >>> 7)
/-- soft.rs:17-19 -/
def sigma1 (x : W64) : W64 := x.rotateRight 19 ^^^ x.rotateLeft 3 ^^^ (x >>> 6)

/-- `sha512_schedule_x2`, soft.rs:10-36 -/
def scheduleX2 (v0 v1 v4to5 v7 : V2 W64) : V2 W64 :=
  let w1 := v0.x0; let w0 := v0.x1
  let w2 := v1.x1
  let w10 := v4to5.x0; let w9 := v4to5.x1
  let w15 := v7.x0; let w14 := v7.x1
  let w16 := sigma1 w14 + w9 + sigma0 w1 + w0
  let w17 := sigma1 w15 + w10 + sigma0 w2 + w1
  ⟨w17, w16⟩

/-- soft.rs:46-50 -/
def bigSigma0 (a : W64) : W64 := a.rotateRight 28 ^^^ a.rotateRight 34 ^^^ a.rotateRight 39
/-- soft.rs:51-55 -/
def bigSigma1 (a : W64) : W64 := a.rotateRight 14 ^^^ a.rotateRight 18 ^^^ a.rotateRight 41
/-- soft.rs:56-60 -/
def bool3ary_202 (a b c : W64) : W64 := c ^^^ (a &&& (b ^^^ c))
/-- soft.rs:61-65 -/
def bool3ary_232 (a b c : W64) : W64 := (a &&& b) ^^^ (a &&& c) ^^^ (b &&& c)

/-- `sha512_digest_round`, soft.rs:39-90 -/
def digestRound (ae bf cg dh : V2 W64) (wk0 : W64) : V2 W64 :=
  let a0 := ae.x0; let e0 := ae.x1
  let b0 := bf.x0; let f0 := bf.x1
  let c0 := cg.x0; let g0 := cg.x1
  let d0 := dh.x0; let h0 := dh.x1
  let x0 := bigSigma1 e0 + bool3ary_202 e0 f0 g0 + wk0 + h0
  let y0 := bigSigma0 a0 + bool3ary_232 a0 b0 c0
  ⟨x0 + y0, x0 + d0⟩

/-- `add_rk`, soft.rs:93-105 -/
def addRk (w : V2 W64) (i : Nat) : V2 W64 := ⟨w.x0 + k64 (2 * i + 1), w.x1 + k64 (2 * i + 0)⟩

/-- The mutable variables `ae, bf, cg, dh`. -/
structure Regs where
  ae : V2 W64
  bf : V2 W64
  cg : V2 W64
  dh : V2 W64

/-- `schedule!`, soft.rs:109-113 -/
def scheduleM (v0 v1 v4 v5 v7 : V2 W64) : V2 W64 := scheduleX2 v0 v1 (sha512load v4 v5) v7

/-- `rounds4!`, soft.rs:115-125 -/
def rounds4 (r : Regs) (wk0 wk1 : V2 W64) : Regs :=
  let ae := r.ae; let bf := r.bf; let cg := r.cg; let dh := r.dh
  let u := wk0.x0; let t := wk0.x1
  let w := wk1.x0; let v := wk1.x1
  let dh := digestRound ae bf cg dh t
  let cg := digestRound dh ae bf cg u
  let bf := digestRound cg dh ae bf v
  let ae := digestRound bf cg dh ae w
  ⟨ae, bf, cg, dh⟩

/-- `sha512_digest_block_u64`, soft.rs:108-209 -/
def digestBlockU64 (state : V8 W64) (block : Nat → W64) : V8 W64 :=
  let r : Regs := ⟨⟨state.x0, state.x4⟩, ⟨state.x1, state.x5⟩, ⟨state.x2, state.x6⟩, ⟨state.x3, state.x7⟩⟩
  let w1 : V2 W64 := ⟨block 3, block 2⟩; let w0 : V2 W64 := ⟨block 1, block 0⟩
  let r := rounds4 r (addRk w0 0) (addRk w1 1)
  let w3 : V2 W64 := ⟨block 7, block 6⟩; let w2 : V2 W64 := ⟨block 5, block 4⟩
  let r := rounds4 r (addRk w2 2) (addRk w3 3)
  let w5 : V2 W64 := ⟨block 11, block 10⟩; let w4 : V2 W64 := ⟨block 9, block 8⟩
  let r := rounds4 r (addRk w4 4) (addRk w5 5)
  let w7 : V2 W64 := ⟨block 15, block 14⟩; let w6 : V2 W64 := ⟨block 13, block 12⟩
  let r := rounds4 r (addRk w6 6) (addRk w7 7)
  let w8 := scheduleM w0 w1 w4 w5 w7
  let w9 := scheduleM w1 w2 w5 w6 w8
  let r := rounds4 r (addRk w8 8) (addRk w9 9)
  let w0 := scheduleM w2 w3 w6 w7 w9
  let w1 := scheduleM w3 w4 w7 w8 w0
  let r := rounds4 r (addRk w0 10) (addRk w1 11)
  let w2 := scheduleM w4 w5 w8 w9 w1
  let w3 := scheduleM w5 w6 w9 w0 w2
  let r := rounds4 r (addRk w2 12) (addRk w3 13)
  let w4 := scheduleM w6 w7 w0 w1 w3
  let w5 := scheduleM w7 w8 w1 w2 w4
  let r := rounds4 r (addRk w4 14) (addRk w5 15)
  let w6 := scheduleM w8 w9 w2 w3 w5
  let w7 := scheduleM w9 w0 w3 w4 w6
  let r := rounds4 r (addRk w6 16) (addRk w7 17)
  let w8 := scheduleM w0 w1 w4 w5 w7
  let w9 := scheduleM w1 w2 w5 w6 w8
  let r := rounds4 r (addRk w8 18) (addRk w9 19)
  let w0 := scheduleM w2 w3 w6 w7 w9
  let w1 := scheduleM w3 w4 w7 w8 w0
  let r := rounds4 r (addRk w0 20) (addRk w1 21)
  let w2 := scheduleM w4 w5 w8 w9 w1
  let w3 := scheduleM w5 w6 w9 w0 w2
  let r := rounds4 r (addRk w2 22) (addRk w3 23)
  let w4 := scheduleM w6 w7 w0 w1 w3
  let w5 := scheduleM w7 w8 w1 w2 w4
  let r := rounds4 r (addRk w4 24) (addRk w5 25)
  let w6 := scheduleM w8 w9 w2 w3 w5
  let w7 := scheduleM w9 w0 w3 w4 w6
  let r := rounds4 r (addRk w6 26) (addRk w7 27)
  let w8 := scheduleM w0 w1 w4 w5 w7
  let w9 := scheduleM w1 w2 w5 w6 w8
  let r := rounds4 r (addRk w8 28) (addRk w9 29)
  let w0 := scheduleM w2 w3 w6 w7 w9
  let w1 := scheduleM w3 w4 w7 w8 w0
  let r := rounds4 r (addRk w0 30) (addRk w1 31)
  let w2 := scheduleM w4 w5 w8 w9 w1
  let w3 := scheduleM w5 w6 w9 w0 w2
  let r := rounds4 r (addRk w2 32) (addRk w3 33)
  let w4 := scheduleM w6 w7 w0 w1 w3
  let w5 := scheduleM w7 w8 w1 w2 w4
  let r := rounds4 r (addRk w4 34) (addRk w5 35)
  let w6 := scheduleM w8 w9 w2 w3 w5
  let w7 := scheduleM w9 w0 w3 w4 w6
  let r := rounds4 r (addRk w6 36) (addRk w7 37)
  let w8 := scheduleM w0 w1 w4 w5 w7
  let w9 := scheduleM w1 w2 w5 w6 w8
  let r := rounds4 r (addRk w8 38) (addRk w9 39)
  ⟨state.x0 + r.ae.x0, state.x1 + r.bf.x0, state.x2 + r.cg.x0, state.x3 + r.dh.x0,
   state.x4 + r.ae.x1, state.x5 + r.bf.x1, state.x6 + r.cg.x1, state.x7 + r.dh.x1⟩

/-- `to_u64s`, /repo/sha2/src/sha512.rs:41-47. -/
def toU64s (block : Bytes) : Nat → W64 := wordBE 64 block

/-- `soft::compress`, soft.rs:211-215. -/
def compressSoft (state : V8 W64) (blks : List Bytes) : V8 W64 :=
  blks.foldl (fun s b => digestBlockU64 s (toU64s b)) state

/-! ### core_api.rs -/

/-- `Sha512VarCore`, core_api.rs:139-142. -/
@[ext] structure State where
  state : V8 W64
  blockLen : W128
deriving DecidableEq

/-- `new(output_size)`, core_api.rs:171-181. -/
def new (outputSize : Nat) : Option State :=
  match outputSize with
  | 28 => some ⟨H512_224, 0⟩
  | 32 => some ⟨H512_256, 0⟩
  | 48 => some ⟨H512_384, 0⟩
  | 64 => some ⟨H512_512, 0⟩
  | _ => none

/-- `update_blocks`, core_api.rs:156-160 (`+=` with release-profile wrapping, see C29). -/
def updateBlocks (s : State) (blks : List Bytes) : State :=
  ⟨compressSoft s.state blks, s.blockLen + BitVec.ofNat 128 blks.length⟩

/-- `finalize_variable_core`, core_api.rs:184-192. -/
def finalizeFull (s : State) (buffer : BlockBuffer) : Bytes :=
  let bs : W128 := 128
  let bitLen : W128 := 8 * (BitVec.ofNat 128 buffer.pos + bs * s.blockLen)
  let st := buffer.len128PaddingBE 128 bitLen (fun st b => compressSoft st [b]) s.state
  bytesOfWordsBE st.toList

/-- `serialize`, core_api.rs:224-234. -/
def serialize (s : State) : Bytes := bytesOfWordsLE s.state.toList ++ leBytes 16 s.blockLen.toNat

/-- `deserialize`, core_api.rs:236-249 (the argument has the fixed length 80). -/
def deserialize (raw : Bytes) : Option State :=
  if raw.length = 80 then
    some ⟨V8.ofFn (wordLE 64 raw), BitVec.ofNat 128 (ofLE (raw.drop 64))⟩
  else none

/-- `Sha512VarCore` as a `VariableOutputCore` (block size :147, `Eager` :151, output size :164, side :168,
`SerializedStateSize = U80` :222). -/
def varCore : VarCore State where
  kind := .eager
  bs := 128
  outLen := 64
  new := new
  updateBlocks := updateBlocks
  finalizeFull := finalizeFull
  side := .left
  serialize := serialize
  deserialize := deserialize
  serLen := 80

/-- `Sha512_224`, /repo/sha2/src/lib.rs:53. -/
def sha512_224 : Core State Bytes := varCore.ctWith 28 ⟨H512_224, 0⟩
/-- `Sha512_256`, /repo/sha2/src/lib.rs:55. -/
def sha512_256 : Core State Bytes := varCore.ctWith 32 ⟨H512_256, 0⟩
/-- `Sha384`, /repo/sha2/src/lib.rs:57. -/
def sha384 : Core State Bytes := varCore.ctWith 48 ⟨H512_384, 0⟩
/-- `Sha512`, /repo/sha2/src/lib.rs:59. -/
def sha512 : Core State Bytes := varCore.ctWith 64 ⟨H512_512, 0⟩

end Hashes.Sha512
