import Verif.Isa.Arm
import Verif.Model.Sha1
/- Model of the AArch64 backend of SHA-1, /repo/sha1/src/compress/aarch64.rs. -/
namespace Hashes.Sha1.Arm
open Simd Hashes.Arm

/-- The mutable variables `abcd` and `e0`. -/
abbrev Regs := V128 × W32

/-- The loop body over one block, aarch64.rs:24-167, line by line (33-165 are the rounds). -/
def digestBlock (r : Regs) (block : Bytes) : Regs :=
  let abcd := r.1
  let e0 := r.2
  let k0 := vdupq_n_u32 (K 0)
  let k1 := vdupq_n_u32 (K 1)
  let k2 := vdupq_n_u32 (K 2)
  let k3 := vdupq_n_u32 (K 3)
  let abcd_cpy := abcd
  let e0_cpy := e0
  let msg0 := vrev32q_u8 (load block 0)
  let msg1 := vrev32q_u8 (load block 16)
  let msg2 := vrev32q_u8 (load block 32)
  let msg3 := vrev32q_u8 (load block 48)
  let tmp0 := vaddq_u32 msg0 k0
  let tmp1 := vaddq_u32 msg1 k0
  -- Rounds 0-3
  let e1 := vsha1h_u32 (vgetq_lane_u32 abcd 0)
  let abcd := vsha1cq_u32 abcd e0 tmp0
  let tmp0 := vaddq_u32 msg2 k0
  let msg0 := vsha1su0q_u32 msg0 msg1 msg2
  -- Rounds 4-7
  let e0 := vsha1h_u32 (vgetq_lane_u32 abcd 0)
  let abcd := vsha1cq_u32 abcd e1 tmp1
  let tmp1 := vaddq_u32 msg3 k0
  let msg0 := vsha1su1q_u32 msg0 msg3
  let msg1 := vsha1su0q_u32 msg1 msg2 msg3
  -- Rounds 8-11
  let e1 := vsha1h_u32 (vgetq_lane_u32 abcd 0)
  let abcd := vsha1cq_u32 abcd e0 tmp0
  let tmp0 := vaddq_u32 msg0 k0
  let msg1 := vsha1su1q_u32 msg1 msg0
  let msg2 := vsha1su0q_u32 msg2 msg3 msg0
  -- Rounds 12-15
  let e0 := vsha1h_u32 (vgetq_lane_u32 abcd 0)
  let abcd := vsha1cq_u32 abcd e1 tmp1
  let tmp1 := vaddq_u32 msg1 k1
  let msg2 := vsha1su1q_u32 msg2 msg1
  let msg3 := vsha1su0q_u32 msg3 msg0 msg1
  -- Rounds 16-19
  let e1 := vsha1h_u32 (vgetq_lane_u32 abcd 0)
  let abcd := vsha1cq_u32 abcd e0 tmp0
  let tmp0 := vaddq_u32 msg2 k1
  let msg3 := vsha1su1q_u32 msg3 msg2
  let msg0 := vsha1su0q_u32 msg0 msg1 msg2
  -- Rounds 20-23
  let e0 := vsha1h_u32 (vgetq_lane_u32 abcd 0)
  let abcd := vsha1pq_u32 abcd e1 tmp1
  let tmp1 := vaddq_u32 msg3 k1
  let msg0 := vsha1su1q_u32 msg0 msg3
  let msg1 := vsha1su0q_u32 msg1 msg2 msg3
  -- Rounds 24-27
  let e1 := vsha1h_u32 (vgetq_lane_u32 abcd 0)
  let abcd := vsha1pq_u32 abcd e0 tmp0
  let tmp0 := vaddq_u32 msg0 k1
  let msg1 := vsha1su1q_u32 msg1 msg0
  let msg2 := vsha1su0q_u32 msg2 msg3 msg0
  -- Rounds 28-31
  let e0 := vsha1h_u32 (vgetq_lane_u32 abcd 0)
  let abcd := vsha1pq_u32 abcd e1 tmp1
  let tmp1 := vaddq_u32 msg1 k1
  let msg2 := vsha1su1q_u32 msg2 msg1
  let msg3 := vsha1su0q_u32 msg3 msg0 msg1
  -- Rounds 32-35
  let e1 := vsha1h_u32 (vgetq_lane_u32 abcd 0)
  let abcd := vsha1pq_u32 abcd e0 tmp0
  let tmp0 := vaddq_u32 msg2 k2
  let msg3 := vsha1su1q_u32 msg3 msg2
  let msg0 := vsha1su0q_u32 msg0 msg1 msg2
  -- Rounds 36-39
  let e0 := vsha1h_u32 (vgetq_lane_u32 abcd 0)
  let abcd := vsha1pq_u32 abcd e1 tmp1
  let tmp1 := vaddq_u32 msg3 k2
  let msg0 := vsha1su1q_u32 msg0 msg3
  let msg1 := vsha1su0q_u32 msg1 msg2 msg3
  -- Rounds 40-43
  let e1 := vsha1h_u32 (vgetq_lane_u32 abcd 0)
  let abcd := vsha1mq_u32 abcd e0 tmp0
  let tmp0 := vaddq_u32 msg0 k2
  let msg1 := vsha1su1q_u32 msg1 msg0
  let msg2 := vsha1su0q_u32 msg2 msg3 msg0
  -- Rounds 44-47
  let e0 := vsha1h_u32 (vgetq_lane_u32 abcd 0)
  let abcd := vsha1mq_u32 abcd e1 tmp1
  let tmp1 := vaddq_u32 msg1 k2
  let msg2 := vsha1su1q_u32 msg2 msg1
  let msg3 := vsha1su0q_u32 msg3 msg0 msg1
  -- Rounds 48-51
  let e1 := vsha1h_u32 (vgetq_lane_u32 abcd 0)
  let abcd := vsha1mq_u32 abcd e0 tmp0
  let tmp0 := vaddq_u32 msg2 k2
  let msg3 := vsha1su1q_u32 msg3 msg2
  let msg0 := vsha1su0q_u32 msg0 msg1 msg2
  -- Rounds 52-55
  let e0 := vsha1h_u32 (vgetq_lane_u32 abcd 0)
  let abcd := vsha1mq_u32 abcd e1 tmp1
  let tmp1 := vaddq_u32 msg3 k3
  let msg0 := vsha1su1q_u32 msg0 msg3
  let msg1 := vsha1su0q_u32 msg1 msg2 msg3
  -- Rounds 56-59
  let e1 := vsha1h_u32 (vgetq_lane_u32 abcd 0)
  let abcd := vsha1mq_u32 abcd e0 tmp0
  let tmp0 := vaddq_u32 msg0 k3
  let msg1 := vsha1su1q_u32 msg1 msg0
  let msg2 := vsha1su0q_u32 msg2 msg3 msg0
  -- Rounds 60-63
  let e0 := vsha1h_u32 (vgetq_lane_u32 abcd 0)
  let abcd := vsha1pq_u32 abcd e1 tmp1
  let tmp1 := vaddq_u32 msg1 k3
  let msg2 := vsha1su1q_u32 msg2 msg1
  let msg3 := vsha1su0q_u32 msg3 msg0 msg1
  -- Rounds 64-67
  let e1 := vsha1h_u32 (vgetq_lane_u32 abcd 0)
  let abcd := vsha1pq_u32 abcd e0 tmp0
  let tmp0 := vaddq_u32 msg2 k3
  let msg3 := vsha1su1q_u32 msg3 msg2
  -- Rounds 68-71
  let e0 := vsha1h_u32 (vgetq_lane_u32 abcd 0)
  let abcd := vsha1pq_u32 abcd e1 tmp1
  let tmp1 := vaddq_u32 msg3 k3
  -- Rounds 72-75
  let e1 := vsha1h_u32 (vgetq_lane_u32 abcd 0)
  let abcd := vsha1pq_u32 abcd e0 tmp0
  -- Rounds 76-79
  let e0 := vsha1h_u32 (vgetq_lane_u32 abcd 0)
  let abcd := vsha1pq_u32 abcd e1 tmp1
  -- Update state
  (vaddq_u32 abcd_cpy abcd, e0 + e0_cpy)

/-- `compress_sha1_neon`, aarch64.rs:15-173.  `vld1q_u32`/`vst1q_u32` read and write the first four words. -/
def compress (state : V5 W32) (blks : List Bytes) : V5 W32 :=
  let r := blks.foldl digestBlock (load (bytesOfWordsLE state.toList) 0, state.x4)
  let w := wordLE 32 (store r.1)
  ⟨w 0, w 1, w 2, w 3, r.2⟩

end Hashes.Sha1.Arm
