import Verif.Proof.Sha256Loong
import Verif.Proof.Sha512Loong
import Verif.Proof.Sha1Loong
import Verif.Proof.Md5Loong
import Verif.Proof.LoongUses
/-
C52: the inline assembly keeps the promises that its operand lists make to the compiler.

An `asm!` block may change only registers listed as outputs (`inout`, `out`); `in` operands and everything else, the stack pointer included,
must come back unchanged.  `options(readonly, pure)` promises that memory is not written.  Without those options memory may be written, but only
where the code may write: the state and the stack below the stack pointer.
-/
namespace Hashes.Asm
open Loong

/-- Output operands, sha2/src/sha256/loongarch64_asm.rs:206-222 and sha512/loongarch64_asm.rs:221-237. -/
def outSha2 : List Reg := [.a1, .a2, .a4, .a5, .a6, .a7, .t0, .t1, .t2, .t3, .t4, .t5, .t6, .t7]
/-- Output operands, sha1/src/compress/loongarch64_asm.rs:232-249. -/
def outSha1 : List Reg := [.a1, .a2, .t0, .t1, .t2, .t3, .t4, .t5, .t6, .t7, .t8]
/-- Output operands, md5/src/compress/loongarch64_asm.rs:158-173. -/
def outMd5 : List Reg := [.a1, .a2, .a4, .a5, .a6, .a7, .t0, .t1, .t2, .t3, .t4, .t5, .t6]

/-- C52. SHA-256: only the declared registers change, however many blocks, whatever the memory. -/
theorem C52_sha256 (fuel : Nat) (s s' : St) (h : Sha256.Loong.asm fuel s = some s') (r : Reg) (hr : r ∉ outSha2) : s'.reg r = s.reg r := by
  obtain ⟨t, ht, rfl⟩ := Option.map_eq_some_iff.1 h
  cases r <;> first
    | exact absurd (by decide) hr
    | exact (run_keeps rfl t).trans ((loop_keeps (by decide +kernel) ht).trans (run_keeps rfl s))
    | skip
  have h1 : (run Sha256.Loong.epilogue t).reg .sp = t.reg .sp + BitVec.ofInt 64 64 := rfl
  have h2 : (run Sha256.Loong.prologue s).reg .sp = s.reg .sp + BitVec.ofInt 64 (-64) := by unfold Sha256.Loong.prologue; loong
  rw [h1, loop_keeps (by decide +kernel) ht, h2, BitVec.add_assoc]
  exact BitVec.add_zero _

/-- C52. SHA-512. -/
theorem C52_sha512 (fuel : Nat) (s s' : St) (h : Sha512.Loong.asm fuel s = some s') (r : Reg) (hr : r ∉ outSha2) : s'.reg r = s.reg r := by
  obtain ⟨t, ht, rfl⟩ := Option.map_eq_some_iff.1 h
  cases r <;> first
    | exact absurd (by decide) hr
    | exact (run_keeps rfl t).trans ((loop_keeps (by decide +kernel) ht).trans (run_keeps rfl s))
    | skip
  have h1 : (run Sha512.Loong.epilogue t).reg .sp = t.reg .sp + BitVec.ofInt 64 128 := rfl
  have h2 : (run Sha512.Loong.prologue s).reg .sp = s.reg .sp + BitVec.ofInt 64 (-128) := by unfold Sha512.Loong.prologue; loong
  rw [h1, loop_keeps (by decide +kernel) ht, h2, BitVec.add_assoc]
  exact BitVec.add_zero _

/-- C52. SHA-1. -/
theorem C52_sha1 (fuel : Nat) (s s' : St) (h : Sha1.Loong.asm fuel s = some s') (r : Reg) (hr : r ∉ outSha1) : s'.reg r = s.reg r := by
  obtain ⟨t, ht, rfl⟩ := Option.map_eq_some_iff.1 h
  cases r <;> first
    | exact absurd (by decide) hr
    | exact (run_keeps rfl t).trans ((loop_keeps (by decide +kernel) ht).trans (run_keeps rfl s))
    | skip
  have h1 : (run Sha1.Loong.epilogue t).reg .sp = t.reg .sp + BitVec.ofInt 64 64 := rfl
  have h2 : (run Sha1.Loong.prologue s).reg .sp = s.reg .sp + BitVec.ofInt 64 (-64) := by unfold Sha1.Loong.prologue; loong
  rw [h1, loop_keeps (by decide +kernel) ht, h2, BitVec.add_assoc]
  exact BitVec.add_zero _

/-- C52. MD5: declared registers only, and memory as promised by `readonly, nostack`. -/
theorem C52_md5 (fuel : Nat) (s s' : St) (h : Md5.Loong.asm fuel s = some s') :
    (∀ r, r ∉ outMd5 → s'.reg r = s.reg r) ∧ s'.mem = s.mem := by
  obtain ⟨t, ht, rfl⟩ := Option.map_eq_some_iff.1 h
  constructor
  · intro r hr
    cases r <;> first
      | exact absurd (by decide) hr
      | exact (run_keeps rfl t).trans ((loop_keeps (by decide +kernel) ht).trans (run_keeps rfl s))
  · exact loop_pure (by decide +kernel) ht

/-! ### Nothing else is read

Two runs with the same memory and the same input operands (and stack pointer) end with the same memory and the same outputs, whatever the other
registers hold.  For MD5 this is what `options(pure)` promises. -/

/-- C52. -/
theorem C52_sha256_reads (fuel : Nat) (s t s' t' : St) (hm : s.mem = t.mem) (hr : ∀ r ∈ [Reg.sp, .a0, .a1, .a2, .a3], s.reg r = t.reg r)
    (hs : Sha256.Loong.asm fuel s = some s') (ht : Sha256.Loong.asm fuel t = some t') :
    s'.mem = t'.mem ∧ ∀ r ∈ outSha2, s'.reg r = t'.reg r :=
  (asm_agree (R1 := [.t7, .t6, .t5, .t4, .t3, .t2, .t1, .t0, .sp, .a0, .a1, .a2, .a3])
    (R2 := [.a4, .a7, .a6, .a5, .t7, .t6, .t5, .t4, .t3, .t2, .t1, .t0, .sp, .a0, .a1, .a2, .a3])
    (R3 := [.a4, .a7, .a6, .a5, .t7, .t6, .t5, .t4, .t3, .t2, .t1, .t0, .sp, .a0, .a1, .a2, .a3])
    (by decide +kernel) (by decide +kernel) (by decide +kernel) (by decide) (by decide) ⟨hm, hr⟩ hs ht).mono (by decide)

/-- C52. -/
theorem C52_sha512_reads (fuel : Nat) (s t s' t' : St) (hm : s.mem = t.mem) (hr : ∀ r ∈ [Reg.sp, .a0, .a1, .a2, .a3], s.reg r = t.reg r)
    (hs : Sha512.Loong.asm fuel s = some s') (ht : Sha512.Loong.asm fuel t = some t') :
    s'.mem = t'.mem ∧ ∀ r ∈ outSha2, s'.reg r = t'.reg r :=
  (asm_agree (R1 := [.t7, .t6, .t5, .t4, .t3, .t2, .t1, .t0, .sp, .a0, .a1, .a2, .a3])
    (R2 := [.a4, .a7, .a6, .a5, .t7, .t6, .t5, .t4, .t3, .t2, .t1, .t0, .sp, .a0, .a1, .a2, .a3])
    (R3 := [.a4, .a7, .a6, .a5, .t7, .t6, .t5, .t4, .t3, .t2, .t1, .t0, .sp, .a0, .a1, .a2, .a3])
    (by decide +kernel) (by decide +kernel) (by decide +kernel) (by decide) (by decide) ⟨hm, hr⟩ hs ht).mono (by decide)

/-- C52. -/
theorem C52_sha1_reads (fuel : Nat) (s t s' t' : St) (hm : s.mem = t.mem) (hr : ∀ r ∈ [Reg.sp, .a0, .a1, .a2, .a4, .a5, .a6, .a7], s.reg r = t.reg r)
    (hs : Sha1.Loong.asm fuel s = some s') (ht : Sha1.Loong.asm fuel t = some t') :
    s'.mem = t'.mem ∧ ∀ r ∈ outSha1, s'.reg r = t'.reg r :=
  (asm_agree (R1 := [.t4, .t3, .t2, .t1, .t0, .sp, .a0, .a1, .a2, .a4, .a5, .a6, .a7])
    (R2 := [.t8, .t7, .t6, .t5, .t4, .t3, .t2, .t1, .t0, .sp, .a0, .a1, .a2, .a4, .a5, .a6, .a7])
    (R3 := [.t8, .t7, .t6, .t5, .t4, .t3, .t2, .t1, .t0, .sp, .a0, .a1, .a2, .a4, .a5, .a6, .a7])
    (by decide +kernel) (by decide +kernel) (by decide +kernel) (by decide) (by decide) ⟨hm, hr⟩ hs ht).mono (by decide)

/-- C52. -/
theorem C52_md5_reads (fuel : Nat) (s t s' t' : St) (hm : s.mem = t.mem) (hr : ∀ r ∈ [Reg.a1, .a2, .a3, .a4, .a5, .a6, .a7], s.reg r = t.reg r)
    (hs : Md5.Loong.asm fuel s = some s') (ht : Md5.Loong.asm fuel t = some t') :
    s'.mem = t'.mem ∧ ∀ r ∈ outMd5, s'.reg r = t'.reg r :=
  (asm_agree (R1 := [.a1, .a2, .a3, .a4, .a5, .a6, .a7])
    (R2 := [.t6, .t5, .t4, .t3, .t2, .t1, .t0, .a1, .a2, .a3, .a4, .a5, .a6, .a7])
    (R3 := [.t6, .t5, .t4, .t3, .t2, .t1, .t0, .a1, .a2, .a3, .a4, .a5, .a6, .a7])
    (by decide +kernel) (by decide +kernel) (by decide +kernel) (by decide) (by decide) ⟨hm, hr⟩ hs ht).mono (by decide)

/-! ### Memory -/

/-- C52. Writes stay inside the state and the 64 bytes below the stack pointer. -/
theorem C52_sha256_mem (s s' : St) (v : V8 W32) (n fuel : Nat) (p : Sha256.Loong.Pre s v n) (hn : 0 < n) (h : Sha256.Loong.asm fuel s = some s')
    (x : W64) (h0 : 32 ≤ (x - s.reg .a0).toNat) (h1 : 64 ≤ (x - (s.reg .sp + BitVec.ofInt 64 (-64))).toNat) : s'.mem x = s.mem x := by
  obtain ⟨t, e, -, -, -, -, f⟩ := Sha256.Loong.asm_eq p hn (Nat.le_max_right fuel n)
  obtain ⟨u, hu, rfl⟩ := Option.map_eq_some_iff.1 h
  rw [Sha256.Loong.asm, loop_mono (Nat.le_max_left fuel n) hu] at e
  rw [Option.some.inj e]
  exact f x h0 h1

/-- C52. Writes stay inside the state and the 128 bytes below the stack pointer. -/
theorem C52_sha512_mem (s s' : St) (v : V8 W64) (n fuel : Nat) (p : Sha512.Loong.Pre s v n) (hn : 0 < n) (h : Sha512.Loong.asm fuel s = some s')
    (x : W64) (h0 : 64 ≤ (x - s.reg .a0).toNat) (h1 : 128 ≤ (x - (s.reg .sp + BitVec.ofInt 64 (-128))).toNat) : s'.mem x = s.mem x := by
  obtain ⟨t, e, -, -, -, -, f⟩ := Sha512.Loong.asm_eq p hn (Nat.le_max_right fuel n)
  obtain ⟨u, hu, rfl⟩ := Option.map_eq_some_iff.1 h
  rw [Sha512.Loong.asm, loop_mono (Nat.le_max_left fuel n) hu] at e
  rw [Option.some.inj e]
  exact f x h0 h1

/-- C52. Writes stay inside the state and the 64 bytes below the stack pointer. -/
theorem C52_sha1_mem (s s' : St) (v : V5 W32) (n fuel : Nat) (p : Sha1.Loong.Pre s v n) (hn : 0 < n) (h : Sha1.Loong.asm fuel s = some s')
    (x : W64) (h0 : 20 ≤ (x - s.reg .a0).toNat) (h1 : 64 ≤ (x - (s.reg .sp + BitVec.ofInt 64 (-64))).toNat) : s'.mem x = s.mem x := by
  obtain ⟨t, e, -, -, -, -, f⟩ := Sha1.Loong.asm_eq p hn (Nat.le_max_right fuel n)
  obtain ⟨u, hu, rfl⟩ := Option.map_eq_some_iff.1 h
  rw [Sha1.Loong.asm, loop_mono (Nat.le_max_left fuel n) hu] at e
  rw [Option.some.inj e]
  exact f x h0 h1

/-- Concrete case: one block of MD5 with garbage in the undeclared registers `t0 … t6`, `sp`, `a0`. -/
example : (Md5.Loong.asm 1 ⟨fun r => if r = .a2 then 1 else if r = .sp then 5 else 7, fun _ => 0⟩).map (fun s => (s.reg .sp, s.reg .a0, s.reg .a3)) =
    some (5, 7, 7) := by decide +kernel

end Hashes.Asm
