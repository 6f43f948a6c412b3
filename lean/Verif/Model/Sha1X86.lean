import Verif.Isa.X86
import Verif.Model.Sha1
/- Model of the SHA-NI backend of SHA-1, /repo/sha1/src/compress/x86.rs. -/
namespace Hashes.Sha1.X86
open Simd Hashes.X86

/-- `rounds4!`, x86.rs:10-14. -/
def rounds4 (h0 h1 wk : V128) (i : Nat) : V128 := mm_sha1rnds4_epu32 h0 (mm_sha1nexte_epu32 h1 wk) i

/-- `schedule!`, x86.rs:16-20. -/
def schedule (v0 v1 v2 v3 : V128) : V128 :=
  mm_sha1msg2_epu32 (mm_xor_si128 (mm_sha1msg1_epu32 v0 v1) v2) v3

/-- `MASK`, x86.rs:37. -/
def MASK : V128 := mm_set_epi64x 0x0001020304050607 0x08090A0B0C0D0E0F

/-- The two mutable variables `state_abcd`, `state_e`. -/
abbrev Regs := V128 × V128

/-- The loop body over one block, x86.rs:43-86; `schedule_rounds4!` (:22-31) is
`w4 = schedule!(w0, w1, w2, w3); h1 = rounds4!(h0, h1, w4, i)`. -/
def digestBlock (r : Regs) (block : Bytes) : Regs :=
  let stateAbcd := r.1
  let stateE := r.2
  let w0 := mm_shuffle_epi8 (load block 0) MASK
  let w1 := mm_shuffle_epi8 (load block 16) MASK
  let w2 := mm_shuffle_epi8 (load block 32) MASK
  let w3 := mm_shuffle_epi8 (load block 48) MASK
  let h0 := stateAbcd
  let h1 := mm_add_epi32 stateE w0
  let h1 := mm_sha1rnds4_epu32 h0 h1 0
  let h0 := rounds4 h1 h0 w1 0
  let h1 := rounds4 h0 h1 w2 0
  let h0 := rounds4 h1 h0 w3 0
  let w4 := schedule w0 w1 w2 w3; let h1 := rounds4 h0 h1 w4 0
  let w0 := schedule w1 w2 w3 w4; let h0 := rounds4 h1 h0 w0 1
  let w1 := schedule w2 w3 w4 w0; let h1 := rounds4 h0 h1 w1 1
  let w2 := schedule w3 w4 w0 w1; let h0 := rounds4 h1 h0 w2 1
  let w3 := schedule w4 w0 w1 w2; let h1 := rounds4 h0 h1 w3 1
  let w4 := schedule w0 w1 w2 w3; let h0 := rounds4 h1 h0 w4 1
  let w0 := schedule w1 w2 w3 w4; let h1 := rounds4 h0 h1 w0 2
  let w1 := schedule w2 w3 w4 w0; let h0 := rounds4 h1 h0 w1 2
  let w2 := schedule w3 w4 w0 w1; let h1 := rounds4 h0 h1 w2 2
  let w3 := schedule w4 w0 w1 w2; let h0 := rounds4 h1 h0 w3 2
  let w4 := schedule w0 w1 w2 w3; let h1 := rounds4 h0 h1 w4 2
  let w0 := schedule w1 w2 w3 w4; let h0 := rounds4 h1 h0 w0 3
  let w1 := schedule w2 w3 w4 w0; let h1 := rounds4 h0 h1 w1 3
  let w2 := schedule w3 w4 w0 w1; let h0 := rounds4 h1 h0 w2 3
  let w3 := schedule w4 w0 w1 w2; let h1 := rounds4 h0 h1 w3 3
  let w4 := schedule w0 w1 w2 w3; let h0 := rounds4 h1 h0 w4 3
  (mm_add_epi32 stateAbcd h0, mm_sha1nexte_epu32 h1 stateE)

/-- `digest_blocks`, x86.rs:33-92.  The first 16 bytes of the `[u32; 5]` are loaded and stored; `state[4]` is set
separately. -/
def compress (state : V5 W32) (blks : List Bytes) : V5 W32 :=
  let stateAbcd := load (bytesOfWordsLE state.toList) 0
  let stateAbcd := mm_shuffle_epi32 stateAbcd 0b00011011
  let stateE := mm_set_epi32 state.x4 0 0 0
  let r := blks.foldl digestBlock (stateAbcd, stateE)
  let stateAbcd := mm_shuffle_epi32 r.1 0b00011011
  let w := wordLE 32 (store stateAbcd)
  ⟨w 0, w 1, w 2, w 3, mm_extract_epi32 r.2 3⟩

end Hashes.Sha1.X86
