import Verif.Base.Raw
import Verif.Model.Sha256X86
import Verif.Model.Sha256Arm
import Verif.Model.Sha512Arm
/-
The SHA-NI backend of SHA-256 and the AArch64 backends of SHA-256 and SHA-512 with Rust's rules for raw pointers:
/repo/sha2/src/sha256/x86_shani.rs, /repo/sha2/src/sha256/aarch64.rs, /repo/sha2/src/sha512/aarch64.rs.  State, blocks and tables are
objects at arbitrary addresses.
-/
namespace Hashes.Sha256

/-- The bytes of `[u32; 8]` on a little-endian target. -/
def stateObj (addr : Nat) (s : V8 W32) : Raw.Obj := ⟨addr, bytesOfWordsLE s.toList⟩
/-- The table `K32`, /repo/sha2/src/consts.rs -/
def kObj (addr : Nat) : Raw.Obj := ⟨addr, bytesOfWordsLE K32⟩

namespace X86
open Simd Hashes.X86

/-- `rounds4!`, x86_shani.rs:17-26; `K32X4` (/repo/sha2/src/consts.rs:73-81) has `K32.len() / 4` entries. -/
def rounds4C (r : Regs) (rest : V128) (i : Nat) : Option Regs := do
  let k ← Rs.idx ((List.range (K32.length / 4)).map K32X4) i
  let abef := r.1; let cdgh := r.2
  let kv := mm_set_epi32 k.x0 k.x1 k.x2 k.x3
  let t1 := mm_add_epi32 rest kv
  let cdgh := mm_sha256rnds2_epu32 cdgh abef t1
  let t2 := mm_shuffle_epi32 t1 0x0E
  let abef := mm_sha256rnds2_epu32 abef cdgh t2
  pure (abef, cdgh)

/-- The loop body over one block, x86_shani.rs:58-89. -/
def digestBlockC (r : Regs) (block : Raw.Obj) : Option Regs := do
  let abefSave := r.1
  let cdghSave := r.2
  let m0 ← block.loadAt 16 0
  let w0 := mm_shuffle_epi8 m0 MASK
  let m1 ← block.loadAt 16 1
  let w1 := mm_shuffle_epi8 m1 MASK
  let m2 ← block.loadAt 16 2
  let w2 := mm_shuffle_epi8 m2 MASK
  let m3 ← block.loadAt 16 3
  let w3 := mm_shuffle_epi8 m3 MASK
  let r ← rounds4C r w0 0
  let r ← rounds4C r w1 1
  let r ← rounds4C r w2 2
  let r ← rounds4C r w3 3
  let w4 := schedule w0 w1 w2 w3; let r ← rounds4C r w4 4
  let w0 := schedule w1 w2 w3 w4; let r ← rounds4C r w0 5
  let w1 := schedule w2 w3 w4 w0; let r ← rounds4C r w1 6
  let w2 := schedule w3 w4 w0 w1; let r ← rounds4C r w2 7
  let w3 := schedule w4 w0 w1 w2; let r ← rounds4C r w3 8
  let w4 := schedule w0 w1 w2 w3; let r ← rounds4C r w4 9
  let w0 := schedule w1 w2 w3 w4; let r ← rounds4C r w0 10
  let w1 := schedule w2 w3 w4 w0; let r ← rounds4C r w1 11
  let w2 := schedule w3 w4 w0 w1; let r ← rounds4C r w2 12
  let w3 := schedule w4 w0 w1 w2; let r ← rounds4C r w3 13
  let w4 := schedule w0 w1 w2 w3; let r ← rounds4C r w4 14
  let w0 := schedule w1 w2 w3 w4; let r ← rounds4C r w0 15
  pure (mm_add_epi32 r.1 abefSave, mm_add_epi32 r.2 cdghSave)

/-- `digest_blocks`, x86_shani.rs:42-99 -/
def compressC (addr : Nat) (state : V8 W32) (blks : List Raw.Obj) : Option (V8 W32) := do
  let o := stateObj addr state
  let dcba ← o.loadAt 16 0
  let efgh ← o.loadAt 16 1
  let cdab := mm_shuffle_epi32 dcba 0xB1
  let efgh := mm_shuffle_epi32 efgh 0x1B
  let r ← blks.foldlM digestBlockC (mm_alignr_epi8 cdab efgh 8, mm_blend_epi16 efgh cdab 0xF0)
  let feba := mm_shuffle_epi32 r.1 0x1B
  let dchg := mm_shuffle_epi32 r.2 0xB1
  let dcba := mm_blend_epi16 feba dchg 0xF0
  let hgef := mm_alignr_epi8 dchg feba 8
  let o ← o.storeAt 16 0 dcba
  let o ← o.storeAt 16 1 hgef
  pure (V8.ofFn (wordLE 32 o.data))

end X86

namespace Arm
open Simd Hashes.Arm

/-- One group of four rounds, e.g. aarch64.rs:44-47. -/
def rounds4C (k : Raw.Obj) (r : Regs) (s : V128) (t : Nat) : Option Regs := do
  let kt ← k.loadElem 4 t
  let abcd := r.1; let efgh := r.2
  let tmp := vaddq_u32 s kt
  let abcdPrev := abcd
  let abcd := vsha256hq_u32 abcdPrev efgh tmp
  let efgh := vsha256h2q_u32 efgh abcdPrev tmp
  pure (abcd, efgh)

/-- The body of `for t in (16..64).step_by(16)`, aarch64.rs:67-94. -/
def bodyC (k : Raw.Obj) (v : Vars) (t : Nat) : Option Vars := do
  let s0 := schedule v.s0 v.s1 v.s2 v.s3; let r ← rounds4C k v.r s0 t
  let s1 := schedule v.s1 v.s2 v.s3 s0; let r ← rounds4C k r s1 (t + 4)
  let s2 := schedule v.s2 v.s3 s0 s1; let r ← rounds4C k r s2 (t + 8)
  let s3 := schedule v.s3 s0 s1 s2; let r ← rounds4C k r s3 (t + 12)
  pure ⟨r, s0, s1, s2, s3⟩

/-- The body of the loop over blocks, aarch64.rs:31-99; the loop over `t` has `(64 - 16) / 16` iterations. -/
def digestBlockC (k : Raw.Obj) (r : Regs) (block : Raw.Obj) : Option Regs := do
  let abcdOrig := r.1
  let efghOrig := r.2
  let m0 ← block.loadSlice 1 0 16
  let m1 ← block.loadSlice 1 16 32
  let m2 ← block.loadSlice 1 32 48
  let m3 ← block.loadSlice 1 48 64
  let s0 := vrev32q_u8 m0
  let s1 := vrev32q_u8 m1
  let s2 := vrev32q_u8 m2
  let s3 := vrev32q_u8 m3
  let r ← rounds4C k r s0 0
  let r ← rounds4C k r s1 4
  let r ← rounds4C k r s2 8
  let r ← rounds4C k r s3 12
  let v ← Rs.loop 3 ⟨r, s0, s1, s2, s3⟩ fun v i => bodyC k v (16 + 16 * i)
  pure (vaddq_u32 v.r.1 abcdOrig, vaddq_u32 v.r.2 efghOrig)

/-- `sha256_compress`, aarch64.rs:22-104; `kAddr` is the address of `K32`. -/
def compressC (kAddr addr : Nat) (state : V8 W32) (blks : List Raw.Obj) : Option (V8 W32) := do
  let o := stateObj addr state
  let abcd ← o.loadSlice 4 0 4
  let efgh ← o.loadSlice 4 4 8
  let r ← blks.foldlM (digestBlockC (kObj kAddr)) (abcd, efgh)
  let o ← o.storeSlice 4 0 4 r.1
  let o ← o.storeSlice 4 4 8 r.2
  pure (V8.ofFn (wordLE 32 o.data))

end Arm
end Hashes.Sha256

namespace Hashes.Sha512

/-- The bytes of `[u64; 8]` on a little-endian target. -/
def stateObj (addr : Nat) (s : V8 W64) : Raw.Obj := ⟨addr, bytesOfWordsLE s.toList⟩
/-- The table `K64`, /repo/sha2/src/consts.rs -/
def kObj (addr : Nat) : Raw.Obj := ⟨addr, bytesOfWordsLE K64⟩

namespace Arm
open Simd Hashes.Arm

/-- Two rounds, e.g. aarch64.rs:49-53. -/
def rounds2C (k : Raw.Obj) (ab cd ef gh s : V128) (t : Nat) : Option (V128 × V128) := do
  let kt ← k.loadElem 8 t
  let initialSum := vaddq_u64 s kt
  let sum := vaddq_u64 (vextq_u64 initialSum initialSum 1) gh
  let intermed := vsha512hq_u64 sum (vextq_u64 ef gh 1) (vextq_u64 cd ef 1)
  let gh := vsha512h2q_u64 intermed cd ab
  let cd := vaddq_u64 cd intermed
  pure (gh, cd)

/-- Eight rounds, aarch64.rs:48-74 and :76-102. -/
def rounds8C (k : Raw.Obj) (r : Regs) (a b c d : V128) (t : Nat) : Option Regs := do
  let ⟨ab, cd, ef, gh⟩ := r
  let x ← rounds2C k ab cd ef gh a t
  let gh := x.1; let cd := x.2
  let x ← rounds2C k gh ab cd ef b (t + 2)
  let ef := x.1; let ab := x.2
  let x ← rounds2C k ef gh ab cd c (t + 4)
  let cd := x.1; let gh := x.2
  let x ← rounds2C k cd ef gh ab d (t + 6)
  let ab := x.1; let ef := x.2
  pure ⟨ab, cd, ef, gh⟩

/-- The body of `for t in (16..80).step_by(16)`, aarch64.rs:104-167. -/
def bodyC (k : Raw.Obj) (v : Regs × V8 V128) (t : Nat) : Option (Regs × V8 V128) := do
  let ⟨⟨ab, cd, ef, gh⟩, ⟨s0, s1, s2, s3, s4, s5, s6, s7⟩⟩ := v
  let s0 := schedule s0 s1 s7 s4 s5
  let x ← rounds2C k ab cd ef gh s0 t; let gh := x.1; let cd := x.2
  let s1 := schedule s1 s2 s0 s5 s6
  let x ← rounds2C k gh ab cd ef s1 (t + 2); let ef := x.1; let ab := x.2
  let s2 := schedule s2 s3 s1 s6 s7
  let x ← rounds2C k ef gh ab cd s2 (t + 4); let cd := x.1; let gh := x.2
  let s3 := schedule s3 s4 s2 s7 s0
  let x ← rounds2C k cd ef gh ab s3 (t + 6); let ab := x.1; let ef := x.2
  let s4 := schedule s4 s5 s3 s0 s1
  let x ← rounds2C k ab cd ef gh s4 (t + 8); let gh := x.1; let cd := x.2
  let s5 := schedule s5 s6 s4 s1 s2
  let x ← rounds2C k gh ab cd ef s5 (t + 10); let ef := x.1; let ab := x.2
  let s6 := schedule s6 s7 s5 s2 s3
  let x ← rounds2C k ef gh ab cd s6 (t + 12); let cd := x.1; let gh := x.2
  let s7 := schedule s7 s0 s6 s3 s4
  let x ← rounds2C k cd ef gh ab s7 (t + 14); let ab := x.1; let ef := x.2
  pure (⟨ab, cd, ef, gh⟩, ⟨s0, s1, s2, s3, s4, s5, s6, s7⟩)

/-- The body of the loop over blocks, aarch64.rs:31-174. -/
def digestBlockC (k : Raw.Obj) (r : Regs) (block : Raw.Obj) : Option Regs := do
  let orig := r
  let m0 ← block.loadSlice 1 0 16
  let m1 ← block.loadSlice 1 16 32
  let m2 ← block.loadSlice 1 32 48
  let m3 ← block.loadSlice 1 48 64
  let m4 ← block.loadSlice 1 64 80
  let m5 ← block.loadSlice 1 80 96
  let m6 ← block.loadSlice 1 96 112
  let m7 ← block.loadSlice 1 112 128
  let s : V8 V128 := ⟨vrev64q_u8 m0, vrev64q_u8 m1, vrev64q_u8 m2, vrev64q_u8 m3, vrev64q_u8 m4, vrev64q_u8 m5, vrev64q_u8 m6, vrev64q_u8 m7⟩
  let r ← rounds8C k r s.x0 s.x1 s.x2 s.x3 0
  let r ← rounds8C k r s.x4 s.x5 s.x6 s.x7 8
  let v ← Rs.loop 4 (r, s) fun v i => bodyC k v (16 + 16 * i)
  let r := v.1
  pure ⟨vaddq_u64 r.x0 orig.x0, vaddq_u64 r.x1 orig.x1, vaddq_u64 r.x2 orig.x2, vaddq_u64 r.x3 orig.x3⟩

/-- Store vectors into state, aarch64.rs:176-180 -/
def storeStateC (o : Raw.Obj) (r : Regs) : Option Raw.Obj := do
  let o ← o.storeSlice 8 0 2 r.x0
  let o ← o.storeSlice 8 2 4 r.x1
  let o ← o.storeSlice 8 4 6 r.x2
  o.storeSlice 8 6 8 r.x3

/-- `sha512_compress`, aarch64.rs:21-182 -/
def compressC (kAddr addr : Nat) (state : V8 W64) (blks : List Raw.Obj) : Option (V8 W64) := do
  let o := stateObj addr state
  let ab ← o.loadSlice 8 0 2
  let cd ← o.loadSlice 8 2 4
  let ef ← o.loadSlice 8 4 6
  let gh ← o.loadSlice 8 6 8
  let r ← blks.foldlM (digestBlockC (kObj kAddr)) ⟨ab, cd, ef, gh⟩
  let o ← storeStateC o r
  pure (V8.ofFn (wordLE 64 o.data))

end Arm
end Hashes.Sha512
