import Verif.Model.Sha256
import Verif.Model.Sha512
import Verif.Model.Sha1
import Verif.Model.Md5
/-
Backend selection in sha2, sha1 and md5, and the hash cores with the compression function as a parameter.

`cpufeatures::new!(…)` (external) is a Boolean of the processor: every CPU feature set is covered.
-/
namespace Hashes.Backends

/-- `target_arch`. -/
inductive Arch
  | x86 | riscv32 | riscv64 | aarch64 | loongarch64 | wasm32 | other
  deriving DecidableEq, Repr

/-- `sha2_backend`. -/
inductive Sha2Cfg
  | unset | soft | riscvZknh | riscvZknhCompact
  deriving DecidableEq, Repr

/-- What a build fixes: target, `cfg(sha2_backend)`, feature `force-soft` of sha1 and md5, target feature `simd128`. -/
structure Build where
  arch : Arch
  sha2 : Sha2Cfg
  forceSoft : Bool
  simd128 : Bool

/-- What CPU detection finds at run time (sha256/x86_shani.rs:100, sha1/src/compress/x86.rs:93, sha512/x86_avx2.rs:14,
sha256/aarch64.rs:10, sha1/src/compress/aarch64.rs:10, sha512/aarch64.rs:8). -/
structure Cpu where
  shani : Bool
  avx2 : Bool
  armSha2 : Bool
  armSha3 : Bool

/-- The compression functions of SHA-256. -/
inductive Impl256
  | soft | shani | zknh (xlen : Nat) | zknhCompact (xlen : Nat) | arm | loong | wasm
  deriving DecidableEq, Repr

/-- sha2/src/sha256.rs:1-37, with the run-time tests of sha256/x86_shani.rs:102-112 and sha256/aarch64.rs:12-20. -/
def select256 (b : Build) (c : Cpu) : Impl256 :=
  match b.sha2, b.arch with
  | .soft, _ => .soft
  | _, .x86 => if c.shani then .shani else .soft
  | .riscvZknh, .riscv32 => .zknh 32
  | .riscvZknh, .riscv64 => .zknh 64
  | .riscvZknhCompact, .riscv32 => .zknhCompact 32
  | .riscvZknhCompact, .riscv64 => .zknhCompact 64
  | _, .aarch64 => if c.armSha2 then .arm else .soft
  | _, .loongarch64 => .loong
  | _, .wasm32 => if b.simd128 then .wasm else .soft
  | _, _ => .soft

/-- The compression functions of SHA-512. -/
inductive Impl512
  | soft | avx2 | zknh | zknhCompact | zknh32 | zknhCompact32 | arm | loong | wasm
  deriving DecidableEq, Repr

/-- sha2/src/sha512.rs:1-37, with the run-time tests of sha512/x86_avx2.rs:16-26 and sha512/aarch64.rs:10-18. -/
def select512 (b : Build) (c : Cpu) : Impl512 :=
  match b.sha2, b.arch with
  | .soft, _ => .soft
  | _, .x86 => if c.avx2 then .avx2 else .soft
  | .riscvZknh, .riscv32 => .zknh32
  | .riscvZknh, .riscv64 => .zknh
  | .riscvZknhCompact, .riscv32 => .zknhCompact32
  | .riscvZknhCompact, .riscv64 => .zknhCompact
  | _, .aarch64 => if c.armSha3 then .arm else .soft
  | _, .loongarch64 => .loong
  | _, .wasm32 => if b.simd128 then .wasm else .soft
  | _, _ => .soft

/-- The compression functions of SHA-1. -/
inductive Impl1
  | soft | shani | arm | loong
  deriving DecidableEq, Repr

/-- sha1/src/compress.rs:3-22, with the run-time tests of compress/x86.rs:95-106 and compress/aarch64.rs:176-185. -/
def select1 (b : Build) (c : Cpu) : Impl1 :=
  if b.forceSoft then .soft
  else match b.arch with
    | .aarch64 => if c.armSha2 then .arm else .soft
    | .loongarch64 => .loong
    | .x86 => if c.shani then .shani else .soft
    | _ => .soft

/-- The compression functions of MD5. -/
inductive ImplMd5
  | soft | loong
  deriving DecidableEq, Repr

/-- md5/src/compress.rs:1-12. -/
def selectMd5 (b : Build) : ImplMd5 :=
  if b.forceSoft then .soft else match b.arch with | .loongarch64 => .loong | _ => .soft

/-! ### The cores over any compression function -/

/-- `Sha256VarCore` with `compress256` as a parameter (core_api.rs:40-44, 66-74; the rest does not call it). -/
def core256 (comp : V8 W32 → List Bytes → V8 W32) : VarCore Sha256.State :=
  { Sha256.varCore with
    updateBlocks := fun s blks => ⟨comp s.state blks, s.blockLen + BitVec.ofNat 64 blks.length⟩
    finalizeFull := fun s buffer =>
      let bs : W64 := 64
      let bitLen : W64 := 8 * (BitVec.ofNat 64 buffer.pos + bs * s.blockLen)
      let st := buffer.len64PaddingBE 64 bitLen (fun st b => comp st [b]) s.state
      bytesOfWordsBE st.toList }

/-- `Sha512VarCore` with `compress512` as a parameter (core_api.rs). -/
def core512 (comp : V8 W64 → List Bytes → V8 W64) : VarCore Sha512.State :=
  { Sha512.varCore with
    updateBlocks := fun s blks => ⟨comp s.state blks, s.blockLen + BitVec.ofNat 128 blks.length⟩
    finalizeFull := fun s buffer =>
      let bs : W128 := 128
      let bitLen : W128 := 8 * (BitVec.ofNat 128 buffer.pos + bs * s.blockLen)
      let st := buffer.len128PaddingBE 128 bitLen (fun st b => comp st [b]) s.state
      bytesOfWordsBE st.toList }

/-- `Sha1Core` with `compress` as a parameter (sha1/src/lib.rs:64-84). -/
def core1 (comp : V5 W32 → List Bytes → V5 W32) : Core Sha1.State Bytes :=
  { Sha1.sha1 with
    updateBlocks := fun s blks => ⟨comp s.h blks, s.blockLen + BitVec.ofNat 64 blks.length⟩
    finalize := fun s buffer =>
      let bs : W64 := 64
      let bitLen : W64 := 8 * (BitVec.ofNat 64 buffer.pos + bs * s.blockLen)
      let h := buffer.len64PaddingBE 64 bitLen (fun st b => comp st [b]) s.h
      bytesOfWordsBE h.toList }

/-- `Md5Core` with `compress` as a parameter (md5/src/lib.rs:61-81). -/
def coreMd5 (comp : V4 W32 → List Bytes → V4 W32) : Core Md5.State Bytes :=
  { Md5.md5 with
    updateBlocks := fun s blks => ⟨s.blockLen + BitVec.ofNat 64 blks.length, comp s.state blks⟩
    finalize := fun s buffer =>
      let bitLen : W64 := (s.blockLen * 64 + BitVec.ofNat 64 buffer.pos) * 8
      let st := buffer.len64PaddingLE 64 bitLen (fun st b => comp st [b]) s.state
      bytesOfWordsLE st.toList }

end Hashes.Backends
