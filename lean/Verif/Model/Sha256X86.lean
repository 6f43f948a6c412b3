import Verif.Isa.X86
import Verif.Model.Sha256
/- Model of the SHA-NI backend of SHA-256, /repo/sha2/src/sha256/x86_shani.rs. -/
namespace Hashes.Sha256.X86
open Simd Hashes.X86

/-- `K32X4[i]`, /repo/sha2/src/consts.rs:73-81. -/
def K32X4 (i : Nat) : V4 W32 := ⟨k32 (4 * i + 3), k32 (4 * i + 2), k32 (4 * i + 1), k32 (4 * i)⟩

/-- x86_shani.rs:10-15 -/
def schedule (v0 v1 v2 v3 : V128) : V128 :=
  let t1 := mm_sha256msg1_epu32 v0 v1
  let t2 := mm_alignr_epi8 v3 v2 4
  let t3 := mm_add_epi32 t1 t2
  mm_sha256msg2_epu32 t3 v3

/-- The two mutable variables `abef`, `cdgh` of `digest_blocks`. -/
abbrev Regs := V128 × V128

/-- `rounds4!`, x86_shani.rs:17-26. -/
def rounds4 (r : Regs) (rest : V128) (i : Nat) : Regs :=
  let abef := r.1; let cdgh := r.2
  let k := K32X4 i
  let kv := mm_set_epi32 k.x0 k.x1 k.x2 k.x3
  let t1 := mm_add_epi32 rest kv
  let cdgh := mm_sha256rnds2_epu32 cdgh abef t1
  let t2 := mm_shuffle_epi32 t1 0x0E
  let abef := mm_sha256rnds2_epu32 abef cdgh t2
  (abef, cdgh)

/-- `MASK`, x86_shani.rs:44-47. -/
def MASK : V128 := mm_set_epi64x 0x0C0D0E0F08090A0B 0x0405060700010203

/-- The loop body over one block, x86_shani.rs:58-89; `schedule_rounds4!` (:28-37) is
`w4 = schedule(w0, .., w3); rounds4!(abef, cdgh, w4, i)`. -/
def digestBlock (r : Regs) (block : Bytes) : Regs :=
  let abefSave := r.1
  let cdghSave := r.2
  let w0 := mm_shuffle_epi8 (load block 0) MASK
  let w1 := mm_shuffle_epi8 (load block 16) MASK
  let w2 := mm_shuffle_epi8 (load block 32) MASK
  let w3 := mm_shuffle_epi8 (load block 48) MASK
  let r := rounds4 r w0 0
  let r := rounds4 r w1 1
  let r := rounds4 r w2 2
  let r := rounds4 r w3 3
  let w4 := schedule w0 w1 w2 w3; let r := rounds4 r w4 4
  let w0 := schedule w1 w2 w3 w4; let r := rounds4 r w0 5
  let w1 := schedule w2 w3 w4 w0; let r := rounds4 r w1 6
  let w2 := schedule w3 w4 w0 w1; let r := rounds4 r w2 7
  let w3 := schedule w4 w0 w1 w2; let r := rounds4 r w3 8
  let w4 := schedule w0 w1 w2 w3; let r := rounds4 r w4 9
  let w0 := schedule w1 w2 w3 w4; let r := rounds4 r w0 10
  let w1 := schedule w2 w3 w4 w0; let r := rounds4 r w1 11
  let w2 := schedule w3 w4 w0 w1; let r := rounds4 r w2 12
  let w3 := schedule w4 w0 w1 w2; let r := rounds4 r w3 13
  let w4 := schedule w0 w1 w2 w3; let r := rounds4 r w4 14
  let w0 := schedule w1 w2 w3 w4; let r := rounds4 r w0 15
  (mm_add_epi32 r.1 abefSave, mm_add_epi32 r.2 cdghSave)

/-- The registers before the loop, x86_shani.rs:49-56.  The `[u32; 8]` is read as 32 bytes. -/
def loadState (state : V8 W32) : Regs :=
  let mem := bytesOfWordsLE state.toList
  let dcba := load mem 0
  let efgh := load mem 16
  let cdab := mm_shuffle_epi32 dcba 0xB1
  let efgh := mm_shuffle_epi32 efgh 0x1B
  (mm_alignr_epi8 cdab efgh 8, mm_blend_epi16 efgh cdab 0xF0)

/-- After the loop, x86_shani.rs:91-98: the 32 bytes stored, read back as `[u32; 8]`. -/
def storeState (r : Regs) : V8 W32 :=
  let feba := mm_shuffle_epi32 r.1 0x1B
  let dchg := mm_shuffle_epi32 r.2 0xB1
  let dcba := mm_blend_epi16 feba dchg 0xF0
  let hgef := mm_alignr_epi8 dchg feba 8
  V8.ofFn (wordLE 32 (store dcba ++ store hgef))

/-- `digest_blocks`, x86_shani.rs:42-99. -/
def compress (state : V8 W32) (blks : List Bytes) : V8 W32 :=
  storeState (blks.foldl digestBlock (loadState state))

end Hashes.Sha256.X86
