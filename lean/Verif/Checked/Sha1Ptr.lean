import Verif.Base.Raw
import Verif.Model.Sha1X86
import Verif.Model.Sha1Arm
/-
The x86 and AArch64 backends of SHA-1 with Rust's rules for raw pointers: /repo/sha1/src/compress/x86.rs and
/repo/sha1/src/compress/aarch64.rs.  State and blocks are objects at arbitrary addresses.
-/
namespace Hashes.Sha1

/-- The bytes of `[u32; 5]` on a little-endian target. -/
def stateObj (addr : Nat) (s : V5 W32) : Raw.Obj := ⟨addr, bytesOfWordsLE s.toList⟩

namespace X86
open Simd Hashes.X86

/-- The loop body over one block, x86.rs:43-86. -/
def digestBlockC (r : Regs) (block : Raw.Obj) : Option Regs := do
  let stateAbcd := r.1
  let stateE := r.2
  let m0 ← block.loadAt 16 0
  let w0 := mm_shuffle_epi8 m0 MASK
  let m1 ← block.loadAt 16 1
  let w1 := mm_shuffle_epi8 m1 MASK
  let m2 ← block.loadAt 16 2
  let w2 := mm_shuffle_epi8 m2 MASK
  let m3 ← block.loadAt 16 3
  let w3 := mm_shuffle_epi8 m3 MASK
  let h0 := stateAbcd
  let h1 := mm_add_epi32 stateE w0
  let h1 := mm_sha1rnds4_epu32 h0 h1 0
  let h0 := rounds4 h1 h0 w1 0
  let h1 := rounds4 h0 h1 w2 0
  let h0 := rounds4 h1 h0 w3 0
  let w4 := schedule w0 w1 w2 w3; let h1 := rounds4 h0 h1 w4 0
  let w0 := schedule w1 w2 w3 w4; let h0 := rounds4 h1 h0 w0 1
  let w1 := schedule w2 w3 w4 w0; let h1 := rounds4 h0 h1 w1 1
  let w2 := schedule w3 w4 w0 w1; let h0 := rounds4 h1 h0 w2 1
  let w3 := schedule w4 w0 w1 w2; let h1 := rounds4 h0 h1 w3 1
  let w4 := schedule w0 w1 w2 w3; let h0 := rounds4 h1 h0 w4 1
  let w0 := schedule w1 w2 w3 w4; let h1 := rounds4 h0 h1 w0 2
  let w1 := schedule w2 w3 w4 w0; let h0 := rounds4 h1 h0 w1 2
  let w2 := schedule w3 w4 w0 w1; let h1 := rounds4 h0 h1 w2 2
  let w3 := schedule w4 w0 w1 w2; let h0 := rounds4 h1 h0 w3 2
  let w4 := schedule w0 w1 w2 w3; let h1 := rounds4 h0 h1 w4 2
  let w0 := schedule w1 w2 w3 w4; let h0 := rounds4 h1 h0 w0 3
  let w1 := schedule w2 w3 w4 w0; let h1 := rounds4 h0 h1 w1 3
  let w2 := schedule w3 w4 w0 w1; let h0 := rounds4 h1 h0 w2 3
  let w3 := schedule w4 w0 w1 w2; let h1 := rounds4 h0 h1 w3 3
  let w4 := schedule w0 w1 w2 w3; let h0 := rounds4 h1 h0 w4 3
  pure (mm_add_epi32 stateAbcd h0, mm_sha1nexte_epu32 h1 stateE)

/-- `digest_blocks`, x86.rs:33-92; `blks` are the blocks with their addresses, `addr` is the address of the state. -/
def compressC (addr : Nat) (state : V5 W32) (blks : List Raw.Obj) : Option (V5 W32) := do
  let o := stateObj addr state
  let stateAbcd ← o.loadu o.addr
  let stateAbcd := mm_shuffle_epi32 stateAbcd 0b00011011
  let e ← Rs.idx state.toList 4
  let stateE := mm_set_epi32 e 0 0 0
  let r ← blks.foldlM digestBlockC (stateAbcd, stateE)
  let stateAbcd := mm_shuffle_epi32 r.1 0b00011011
  let o ← o.storeu o.addr stateAbcd
  let ws ← Rs.upd ((List.range 5).map (wordLE 32 o.data)) 4 (mm_extract_epi32 r.2 3)
  pure ⟨ws.getD 0 0, ws.getD 1 0, ws.getD 2 0, ws.getD 3 0, ws.getD 4 0⟩

end X86

namespace Arm
open Simd Hashes.Arm

/-- The loop body over one block, aarch64.rs:24-167. -/
def digestBlockC (r : Regs) (block : Raw.Obj) : Option Regs := do
  let abcd := r.1
  let e0 := r.2
  let k0 := vdupq_n_u32 (K 0)
  let k1 := vdupq_n_u32 (K 1)
  let k2 := vdupq_n_u32 (K 2)
  let k3 := vdupq_n_u32 (K 3)
  let abcd_cpy := abcd
  let e0_cpy := e0
  let m0 ← block.loadAt 1 (16 * 0)
  let msg0 := vrev32q_u8 m0
  let m1 ← block.loadAt 1 (16 * 1)
  let msg1 := vrev32q_u8 m1
  let m2 ← block.loadAt 1 (16 * 2)
  let msg2 := vrev32q_u8 m2
  let m3 ← block.loadAt 1 (16 * 3)
  let msg3 := vrev32q_u8 m3
  let tmp0 := vaddq_u32 msg0 k0
  let tmp1 := vaddq_u32 msg1 k0
  -- Rounds 0-3
  let e1 := vsha1h_u32 (vgetq_lane_u32 abcd 0)
  let abcd := vsha1cq_u32 abcd e0 tmp0
  let tmp0 := vaddq_u32 msg2 k0
  let msg0 := vsha1su0q_u32 msg0 msg1 msg2
  -- Rounds 4-7
  let e0 := vsha1h_u32 (vgetq_lane_u32 abcd 0)
  let abcd := vsha1cq_u32 abcd e1 tmp1
  let tmp1 := vaddq_u32 msg3 k0
  let msg0 := vsha1su1q_u32 msg0 msg3
  let msg1 := vsha1su0q_u32 msg1 msg2 msg3
  -- Rounds 8-11
  let e1 := vsha1h_u32 (vgetq_lane_u32 abcd 0)
  let abcd := vsha1cq_u32 abcd e0 tmp0
  let tmp0 := vaddq_u32 msg0 k0
  let msg1 := vsha1su1q_u32 msg1 msg0
  let msg2 := vsha1su0q_u32 msg2 msg3 msg0
  -- Rounds 12-15
  let e0 := vsha1h_u32 (vgetq_lane_u32 abcd 0)
  let abcd := vsha1cq_u32 abcd e1 tmp1
  let tmp1 := vaddq_u32 msg1 k1
  let msg2 := vsha1su1q_u32 msg2 msg1
  let msg3 := vsha1su0q_u32 msg3 msg0 msg1
  -- Rounds 16-19
  let e1 := vsha1h_u32 (vgetq_lane_u32 abcd 0)
  let abcd := vsha1cq_u32 abcd e0 tmp0
  let tmp0 := vaddq_u32 msg2 k1
  let msg3 := vsha1su1q_u32 msg3 msg2
  let msg0 := vsha1su0q_u32 msg0 msg1 msg2
  -- Rounds 20-23
  let e0 := vsha1h_u32 (vgetq_lane_u32 abcd 0)
  let abcd := vsha1pq_u32 abcd e1 tmp1
  let tmp1 := vaddq_u32 msg3 k1
  let msg0 := vsha1su1q_u32 msg0 msg3
  let msg1 := vsha1su0q_u32 msg1 msg2 msg3
  -- Rounds 24-27
  let e1 := vsha1h_u32 (vgetq_lane_u32 abcd 0)
  let abcd := vsha1pq_u32 abcd e0 tmp0
  let tmp0 := vaddq_u32 msg0 k1
  let msg1 := vsha1su1q_u32 msg1 msg0
  let msg2 := vsha1su0q_u32 msg2 msg3 msg0
  -- Rounds 28-31
  let e0 := vsha1h_u32 (vgetq_lane_u32 abcd 0)
  let abcd := vsha1pq_u32 abcd e1 tmp1
  let tmp1 := vaddq_u32 msg1 k1
  let msg2 := vsha1su1q_u32 msg2 msg1
  let msg3 := vsha1su0q_u32 msg3 msg0 msg1
  -- Rounds 32-35
  let e1 := vsha1h_u32 (vgetq_lane_u32 abcd 0)
  let abcd := vsha1pq_u32 abcd e0 tmp0
  let tmp0 := vaddq_u32 msg2 k2
  let msg3 := vsha1su1q_u32 msg3 msg2
  let msg0 := vsha1su0q_u32 msg0 msg1 msg2
  -- Rounds 36-39
  let e0 := vsha1h_u32 (vgetq_lane_u32 abcd 0)
  let abcd := vsha1pq_u32 abcd e1 tmp1
  let tmp1 := vaddq_u32 msg3 k2
  let msg0 := vsha1su1q_u32 msg0 msg3
  let msg1 := vsha1su0q_u32 msg1 msg2 msg3
  -- Rounds 40-43
  let e1 := vsha1h_u32 (vgetq_lane_u32 abcd 0)
  let abcd := vsha1mq_u32 abcd e0 tmp0
  let tmp0 := vaddq_u32 msg0 k2
  let msg1 := vsha1su1q_u32 msg1 msg0
  let msg2 := vsha1su0q_u32 msg2 msg3 msg0
  -- Rounds 44-47
  let e0 := vsha1h_u32 (vgetq_lane_u32 abcd 0)
  let abcd := vsha1mq_u32 abcd e1 tmp1
  let tmp1 := vaddq_u32 msg1 k2
  let msg2 := vsha1su1q_u32 msg2 msg1
  let msg3 := vsha1su0q_u32 msg3 msg0 msg1
  -- Rounds 48-51
  let e1 := vsha1h_u32 (vgetq_lane_u32 abcd 0)
  let abcd := vsha1mq_u32 abcd e0 tmp0
  let tmp0 := vaddq_u32 msg2 k2
  let msg3 := vsha1su1q_u32 msg3 msg2
  let msg0 := vsha1su0q_u32 msg0 msg1 msg2
  -- Rounds 52-55
  let e0 := vsha1h_u32 (vgetq_lane_u32 abcd 0)
  let abcd := vsha1mq_u32 abcd e1 tmp1
  let tmp1 := vaddq_u32 msg3 k3
  let msg0 := vsha1su1q_u32 msg0 msg3
  let msg1 := vsha1su0q_u32 msg1 msg2 msg3
  -- Rounds 56-59
  let e1 := vsha1h_u32 (vgetq_lane_u32 abcd 0)
  let abcd := vsha1mq_u32 abcd e0 tmp0
  let tmp0 := vaddq_u32 msg0 k3
  let msg1 := vsha1su1q_u32 msg1 msg0
  let msg2 := vsha1su0q_u32 msg2 msg3 msg0
  -- Rounds 60-63
  let e0 := vsha1h_u32 (vgetq_lane_u32 abcd 0)
  let abcd := vsha1pq_u32 abcd e1 tmp1
  let tmp1 := vaddq_u32 msg1 k3
  let msg2 := vsha1su1q_u32 msg2 msg1
  let msg3 := vsha1su0q_u32 msg3 msg0 msg1
  -- Rounds 64-67
  let e1 := vsha1h_u32 (vgetq_lane_u32 abcd 0)
  let abcd := vsha1pq_u32 abcd e0 tmp0
  let tmp0 := vaddq_u32 msg2 k3
  let msg3 := vsha1su1q_u32 msg3 msg2
  -- Rounds 68-71
  let e0 := vsha1h_u32 (vgetq_lane_u32 abcd 0)
  let abcd := vsha1pq_u32 abcd e1 tmp1
  let tmp1 := vaddq_u32 msg3 k3
  -- Rounds 72-75
  let e1 := vsha1h_u32 (vgetq_lane_u32 abcd 0)
  let abcd := vsha1pq_u32 abcd e0 tmp0
  -- Rounds 76-79
  let e0 := vsha1h_u32 (vgetq_lane_u32 abcd 0)
  let abcd := vsha1pq_u32 abcd e1 tmp1
  -- Update state
  pure (vaddq_u32 abcd_cpy abcd, e0 + e0_cpy)

/-- `compress_sha1_neon`, aarch64.rs:15-174 -/
def compressC (addr : Nat) (state : V5 W32) (blks : List Raw.Obj) : Option (V5 W32) := do
  let o := stateObj addr state
  let abcd ← o.loadu o.addr
  let e0 ← Rs.idx state.toList 4
  let r ← blks.foldlM digestBlockC (abcd, e0)
  let o ← o.storeu o.addr r.1
  let ws ← Rs.upd ((List.range 5).map (wordLE 32 o.data)) 4 r.2
  pure ⟨ws.getD 0 0, ws.getD 1 0, ws.getD 2 0, ws.getD 3 0, ws.getD 4 0⟩

end Arm
end Hashes.Sha1
