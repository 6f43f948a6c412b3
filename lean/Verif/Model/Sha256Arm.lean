import Verif.Isa.Arm
import Verif.Model.Sha256
/- Model of the AArch64 backend of SHA-256, /repo/sha2/src/sha256/aarch64.rs. -/
namespace Hashes.Sha256.Arm
open Simd Hashes.Arm

/-- `vld1q_u32(&K32[t])`: four consecutive constants. -/
def ldK (t : Nat) : V128 := load (bytesOfWordsLE (K32.drop t)) 0

/-- The mutable variables `abcd`, `efgh`. -/
abbrev Regs := V128 × V128

/-- One group of four rounds, e.g. aarch64.rs:44-47 (`tmp = vaddq_u32(s, vld1q_u32(&K32[t])); abcd_prev = abcd; ..`). -/
def rounds4 (r : Regs) (s : V128) (t : Nat) : Regs :=
  let abcd := r.1; let efgh := r.2
  let tmp := vaddq_u32 s (ldK t)
  let abcdPrev := abcd
  let abcd := vsha256hq_u32 abcdPrev efgh tmp
  let efgh := vsha256h2q_u32 efgh abcdPrev tmp
  (abcd, efgh)

/-- `vsha256su1q_u32(vsha256su0q_u32(a, b), c, d)` -/
def schedule (a b c d : V128) : V128 := vsha256su1q_u32 (vsha256su0q_u32 a b) c d

/-- The variables `abcd, efgh` and `s0, .., s3`. -/
structure Vars where
  r : Regs
  s0 : V128
  s1 : V128
  s2 : V128
  s3 : V128

/-- The body of `for t in (16..64).step_by(16)`, aarch64.rs:67-94. -/
def body (v : Vars) (t : Nat) : Vars :=
  let ⟨r, s0, s1, s2, s3⟩ := v
  let s0 := schedule s0 s1 s2 s3; let r := rounds4 r s0 t
  let s1 := schedule s1 s2 s3 s0; let r := rounds4 r s1 (t + 4)
  let s2 := schedule s2 s3 s0 s1; let r := rounds4 r s2 (t + 8)
  let s3 := schedule s3 s0 s1 s2; let r := rounds4 r s3 (t + 12)
  ⟨r, s0, s1, s2, s3⟩

/-- The body of the loop over blocks, aarch64.rs:31-99. -/
def digestBlock (r : Regs) (block : Bytes) : Regs :=
  let abcdOrig := r.1
  let efghOrig := r.2
  let s0 := vrev32q_u8 (load block 0)
  let s1 := vrev32q_u8 (load block 16)
  let s2 := vrev32q_u8 (load block 32)
  let s3 := vrev32q_u8 (load block 48)
  let r := rounds4 r s0 0
  let r := rounds4 r s1 4
  let r := rounds4 r s2 8
  let r := rounds4 r s3 12
  let v := [16, 32, 48].foldl body ⟨r, s0, s1, s2, s3⟩
  (vaddq_u32 v.r.1 abcdOrig, vaddq_u32 v.r.2 efghOrig)

/-- `sha256_compress`, aarch64.rs:22-104. -/
def compress (state : V8 W32) (blks : List Bytes) : V8 W32 :=
  let mem := bytesOfWordsLE state.toList
  let r := blks.foldl digestBlock (load mem 0, load mem 16)
  V8.ofFn (wordLE 32 (store r.1 ++ store r.2))

end Hashes.Sha256.Arm
