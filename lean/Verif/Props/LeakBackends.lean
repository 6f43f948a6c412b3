import Verif.Proof.Leak.Sha2Simd
import Verif.Proof.Leak.Riscv
import Verif.Proof.Leak.Loong
import Verif.Model.Md5Loong
import Verif.Model.Sha1Loong
import Verif.Model.Sha256Loong
import Verif.Model.Sha512Loong
/-
C64, the other backends: the SHA-1, SHA-2 and MD5 code written with vector instructions, with the Zknh instructions of RISC-V or in
LoongArch assembly shows addresses and lengths only, whatever the message, the chaining value and the rest of the memory hold.
-/
namespace Hashes
open Leak Raw

/-- As many blocks, at the same addresses and of the same lengths. -/
def SamePlaces (l l' : List Raw.Obj) : Prop := l.map Raw.Obj.addr = l'.map Raw.Obj.addr ∧ l.map (·.data.length) = l'.map (·.data.length)

theorem SamePlaces.each {l l' : List Raw.Obj} (h : SamePlaces l l') : Each SameObj l l' := by
  induction l generalizing l' with
  | nil => cases l' with
    | nil => exact .nil
    | cons => cases h.1
  | cons a l ih => cases l' with
    | nil => cases h.1
    | cons b l' =>
      have h1 := List.cons.inj h.1
      have h2 := List.cons.inj h.2
      exact .cons ⟨h1.1, h2.1⟩ (ih ⟨h1.2, h2.2⟩)

/-- Forgetting the observations gives the programs in Verif/Checked. -/
theorem C64_values_backends :
    (∀ a s l, (Sha1.X86.compressL a s l).val = Sha1.X86.compressC a s l) ∧ (∀ a s l, (Sha1.Arm.compressL a s l).val = Sha1.Arm.compressC a s l) ∧
    (∀ a s l, (Sha256.X86.compressL a s l).val = Sha256.X86.compressC a s l) ∧
    (∀ k a s l, (Sha256.Arm.compressL k a s l).val = Sha256.Arm.compressC k a s l) ∧
    (∀ k a s l, (Sha512.Arm.compressL k a s l).val = Sha512.Arm.compressC k a s l) ∧
    (∀ k s l, (Sha2Simd.wasm256L k s l).val = Sha2Simd.wasm256C k s l) ∧ (∀ k s l, (Sha2Simd.wasm512L k s l).val = Sha2Simd.wasm512C k s l) ∧
    (∀ k s o n, (Sha2Simd.avx2L k s o n).val = Sha2Simd.avx2C k s o n) ∧
    (∀ m r p n st x s, (Sha2Riscv.zknh256L m r p n st x s).val = Sha2Riscv.zknh256 m r p n st x s) ∧
    (∀ m r p n st x s, (Sha2Riscv.zknh256CompactL m r p n st x s).val = Sha2Riscv.zknh256Compact m r p n st x s) ∧
    (∀ m r p n st s, (Sha2Riscv.zknh512L m r p n st s).val = Sha2Riscv.zknh512 m r p n st s) ∧
    (∀ m r p n st s, (Sha2Riscv.zknh512CompactL m r p n st s).val = Sha2Riscv.zknh512Compact m r p n st s) ∧
    (∀ m r p n st s, (Sha2Riscv.zknh512L' m r p n st s).val = Sha2Riscv.zknh512' m r p n st s) ∧
    (∀ m r p n st s, (Sha2Riscv.zknh512CompactL' m r p n st s).val = Sha2Riscv.zknh512Compact' m r p n st s) :=
  ⟨Sha1.X86.compressL_val, Sha1.Arm.compressL_val, Sha256.X86.compressL_val, Sha256.Arm.compressL_val, Sha512.Arm.compressL_val, Sha2Simd.wasm256L_val,
    Sha2Simd.wasm512L_val, Sha2Simd.avx2L_val, Sha2Riscv.zknh256L_val, Sha2Riscv.zknh256CompactL_val, Sha2Riscv.zknh512L_val,
    Sha2Riscv.zknh512CompactL_val, Sha2Riscv.zknh512L'_val, Sha2Riscv.zknh512CompactL'_val⟩

/-- C64 (SHA-1 with the x86 and ARM instructions); `a` is the address of the state. -/
theorem C64_sha1 (a : Nat) (s s' : V5 W32) (l l' : List Raw.Obj) (h : SamePlaces l l') :
    (Sha1.X86.compressL a s l).obs = (Sha1.X86.compressL a s' l').obs ∧ (Sha1.Arm.compressL a s l).obs = (Sha1.Arm.compressL a s' l').obs :=
  ⟨(Sha1.X86.compressL_rel a s s' h.each).obs, (Sha1.Arm.compressL_rel a s s' h.each).obs⟩

/-- C64 (SHA-256 with x86, ARM and wasm instructions); `k` is the address of the table of constants. -/
theorem C64_sha256 (k a : Nat) (s s' : V8 W32) (l l' : List Raw.Obj) (h : SamePlaces l l') :
    (Sha256.X86.compressL a s l).obs = (Sha256.X86.compressL a s' l').obs ∧
    (Sha256.Arm.compressL k a s l).obs = (Sha256.Arm.compressL k a s' l').obs ∧
    (Sha2Simd.wasm256L k s l).obs = (Sha2Simd.wasm256L k s' l').obs :=
  ⟨(Sha256.X86.compressL_rel a s s' h.each).obs, (Sha256.Arm.compressL_rel k a s s' h.each).obs, (Sha2Simd.wasm256L_rel k s s' h.each).obs⟩

/-- C64 (SHA-512 with ARM and wasm instructions). -/
theorem C64_sha512 (k a : Nat) (s s' : V8 W64) (l l' : List Raw.Obj) (h : SamePlaces l l') :
    (Sha512.Arm.compressL k a s l).obs = (Sha512.Arm.compressL k a s' l').obs ∧ (Sha2Simd.wasm512L k s l).obs = (Sha2Simd.wasm512L k s' l').obs :=
  ⟨(Sha512.Arm.compressL_rel k a s s' h.each).obs, (Sha2Simd.wasm512L_rel k s s' h.each).obs⟩

/-- C64 (SHA-512 with AVX2): `n` blocks in one slice at the address `a`. -/
theorem C64_avx2 (k a n : Nat) (s s' : V8 W64) (d d' : Bytes) (h : d.length = d'.length) :
    (Sha2Simd.avx2L k s ⟨a, d⟩ n).obs = (Sha2Simd.avx2L k s' ⟨a, d'⟩ n).obs :=
  (Sha2Simd.avx2L_rel k s s' (show SameObj ⟨a, d⟩ ⟨a, d'⟩ from ⟨rfl, h⟩) n).obs

/-- C64 (SHA-2 with Zknh): `n` blocks at `p`, inside an object `r`, in memories `m`, `m'` of any contents; all six variants. -/
theorem C64_riscv (m m' : Riscv.Mem) (r : Raw.Region) (p n : Nat) (strict : Bool) :
    (∀ (xlen : Nat) (s s' : V8 W32), (Sha2Riscv.zknh256L m r p n strict xlen s.toList).obs = (Sha2Riscv.zknh256L m' r p n strict xlen s'.toList).obs ∧
      (Sha2Riscv.zknh256CompactL m r p n strict xlen s.toList).obs = (Sha2Riscv.zknh256CompactL m' r p n strict xlen s'.toList).obs) ∧
    ∀ s s' : V8 W64, (Sha2Riscv.zknh512L m r p n strict s.toList).obs = (Sha2Riscv.zknh512L m' r p n strict s'.toList).obs ∧
      (Sha2Riscv.zknh512CompactL m r p n strict s.toList).obs = (Sha2Riscv.zknh512CompactL m' r p n strict s'.toList).obs ∧
      (Sha2Riscv.zknh512L' m r p n strict s.toList).obs = (Sha2Riscv.zknh512L' m' r p n strict s'.toList).obs ∧
      (Sha2Riscv.zknh512CompactL' m r p n strict s.toList).obs = (Sha2Riscv.zknh512CompactL' m' r p n strict s'.toList).obs := by
  have l {w : Nat} (xlen n : Nat) (fin : BitVec w → BitVec w) (p : Nat) := Sha2Riscv.loadL_rel strict xlen n fin m m' r p
  have u {w : Nat} (o : Sha2Riscv.Ops w) (s s' b b' : List (BitVec w)) (h : Len s s') (h' : Len b b') := Sha2Riscv.compressBlockUL_rel o h h'
  have c {w : Nat} (o : Sha2Riscv.Ops w) (s s' b b' : List (BitVec w)) (h : Len s s') (h' : Len b b') := Sha2Riscv.compressBlockCL_rel o h h'
  have v {w : Nat} (s s' : V8 (BitVec w)) : Len s.toList s'.toList := rfl
  have q := fun p => Sha2Riscv.loadBlock64L'_rel strict m m' r p
  exact ⟨fun xlen s s' => ⟨(Sha2Riscv.compressL_rel 64 m m' r p n (l xlen 16 _) (u _) (v s s')).obs, (Sha2Riscv.compressL_rel 64 m m' r p n (l xlen 16 _) (c _) (v s s')).obs⟩,
    fun s s' => ⟨(Sha2Riscv.compressL_rel 128 m m' r p n (l 64 16 _) (u _) (v s s')).obs, (Sha2Riscv.compressL_rel 128 m m' r p n (l 64 16 _) (c _) (v s s')).obs,
      (Sha2Riscv.compressL_rel 128 m m' r p n q (u _) (v s s')).obs, (Sha2Riscv.compressL_rel 128 m m' r p n q (c _) (v s s')).obs⟩⟩

/-- C64 (LoongArch): two runs of the assembly for MD5, SHA-1, SHA-256 or SHA-512 with the same five pointers and counters (stack pointer, state,
blocks, number of blocks, table) make the same loads and stores in the same order, and end after as many iterations, whatever the
other registers and the memory hold.  `asmTrace` lists every load and store (C61_loong_trace). -/
theorem C64_loong (s t : Loong.St) (h : ∀ r ∈ [Loong.Reg.sp, .a0, .a1, .a2, .a3], s.reg r = t.reg r) (fuel : Nat) :
    (Loong.asmTrace Md5.Loong.prologue Md5.Loong.body Md5.Loong.epilogue fuel s = Loong.asmTrace Md5.Loong.prologue Md5.Loong.body Md5.Loong.epilogue fuel t ∧
      (Md5.Loong.asm fuel s).isSome = (Md5.Loong.asm fuel t).isSome) ∧
    (Loong.asmTrace Sha1.Loong.prologue Sha1.Loong.body Sha1.Loong.epilogue fuel s =
        Loong.asmTrace Sha1.Loong.prologue Sha1.Loong.body Sha1.Loong.epilogue fuel t ∧
      (Sha1.Loong.asm fuel s).isSome = (Sha1.Loong.asm fuel t).isSome) ∧
    (Loong.asmTrace Sha256.Loong.prologue Sha256.Loong.body Sha256.Loong.epilogue fuel s =
        Loong.asmTrace Sha256.Loong.prologue Sha256.Loong.body Sha256.Loong.epilogue fuel t ∧
      (Sha256.Loong.asm fuel s).isSome = (Sha256.Loong.asm fuel t).isSome) ∧
    (Loong.asmTrace Sha512.Loong.prologue Sha512.Loong.body Sha512.Loong.epilogue fuel s =
        Loong.asmTrace Sha512.Loong.prologue Sha512.Loong.body Sha512.Loong.epilogue fuel t ∧
      (Sha512.Loong.asm fuel s).isSome = (Sha512.Loong.asm fuel t).isSome) := by
  have hb : ∀ r ∈ Loong.bases, r ∈ [Loong.Reg.sp, .a0, .a1, .a2, .a3] := by decide
  have ha : Loong.AgreeB s t := fun r hr => h r (hb r hr)
  simp only [Md5.Loong.asm, Sha1.Loong.asm, Sha256.Loong.asm, Sha512.Loong.asm, Option.isSome_map]
  exact ⟨Loong.asm_agreeB (by decide +kernel) (by decide +kernel) (by decide +kernel) fuel ha,
    Loong.asm_agreeB (by decide +kernel) (by decide +kernel) (by decide +kernel) fuel ha,
    Loong.asm_agreeB (by decide +kernel) (by decide +kernel) (by decide +kernel) fuel ha,
    Loong.asm_agreeB (by decide +kernel) (by decide +kernel) (by decide +kernel) fuel ha⟩

/-! Concrete cases: the accesses of one block, at the right addresses; another address shows. -/

example : (Sha1.X86.compressL 5000 ⟨1, 2, 3, 4, 5⟩ [⟨1000, List.replicate 64 7⟩]).obs.take 6 =
    [.index 5000, .index 4, .index 1000, .index 1016, .index 1032, .index 1048] := by decide +kernel
example : (Sha256.X86.compressL 5000 ⟨1, 2, 3, 4, 5, 6, 7, 8⟩ [⟨1000, List.replicate 64 7⟩]).obs ≠
    (Sha256.X86.compressL 5000 ⟨1, 2, 3, 4, 5, 6, 7, 8⟩ [⟨1001, List.replicate 64 7⟩]).obs := by decide +kernel
example : (Sha2Simd.firstL ⟨0, []⟩ ⟨0, []⟩ 2 ⟨1, 2, 3, 4, 5, 6, 7, 8⟩).obs = [.branch false] := by decide +kernel
example : (Sha2Riscv.loadBlock32L false 32 (fun _ => 3) ⟨1000, 64⟩ 1001).obs.take 5 ≠ (Sha2Riscv.loadBlock32L false 32 (fun _ => 3) ⟨1000, 64⟩ 1000).obs.take 5 := by
  decide +kernel
example : (Loong.asmTrace Md5.Loong.prologue Md5.Loong.body Md5.Loong.epilogue 1 ⟨fun r => if r = .a2 then 1 else if r = .a1 then 1000 else 0, fun _ => 0⟩).length = 128 := by
  decide +kernel

end Hashes
