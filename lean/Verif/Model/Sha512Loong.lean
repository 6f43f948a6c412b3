import Verif.Isa.Loong
/- Model of /repo/sha2/src/sha512/loongarch64_asm.rs.  Generated by tools/gen_loong.py. -/
namespace Hashes.Sha512.Loong
open Hashes.Loong

/-- `roundtail!`, sha2/src/sha512/loongarch64_asm.rs:44-78 -/
def roundtail (i : Nat) (a : Reg) (b : Reg) (c : Reg) (d : Reg) (e : Reg) (f : Reg) (g : Reg) (h : Reg) : List Instr :=
  [.rotrid .a6 e 18,
    .rotrid .a7 e 41,
    .rotrid .a4 e 14,
    .xor .a6 .a6 .a7,
    .xor .a4 .a4 .a6,
    .xor .a6 g f,
    .ldd .a7 .a3 (i * 8),
    .and .a6 .a6 e,
    .xor .a6 .a6 g,
    .addd .a4 .a4 .a6,
    .addd .a4 .a4 .a7,
    .addd h h .a5,
    .addd h h .a4,
    .addd d d h,
    .rotrid .a6 a 39,
    .rotrid .a7 a 34,
    .rotrid .a4 a 28,
    .xor .a6 .a6 .a7,
    .xor .a4 .a4 .a6,
    .addd h h .a4,
    .or .a4 c b,
    .and .a6 c b,
    .and .a4 .a4 a,
    .or .a4 .a4 .a6,
    .addd h h .a4,
    .std .a5 .sp ((i &&& 0xF) * 8)]

/-- `rounda!`, sha2/src/sha512/loongarch64_asm.rs:9-17 -/
def rounda (i : Nat) (a : Reg) (b : Reg) (c : Reg) (d : Reg) (e : Reg) (f : Reg) (g : Reg) (h : Reg) : List Instr :=
  [.ldd .a5 .a1 (i * 8),
    .revbd .a5 .a5] ++
  roundtail i a b c d e f g h

/-- `roundb!`, sha2/src/sha512/loongarch64_asm.rs:19-42 -/
def roundb (i : Nat) (a : Reg) (b : Reg) (c : Reg) (d : Reg) (e : Reg) (f : Reg) (g : Reg) (h : Reg) : List Instr :=
  [.ldd .a4 .sp (((i - 15) &&& 0xF) * 8),
    .ldd .a5 .sp (((i - 16) &&& 0xF) * 8),
    .ldd .a6 .sp (((i - 7) &&& 0xF) * 8),
    .addd .a5 .a5 .a6,
    .rotrid .a6 .a4 8,
    .srlid .a7 .a4 7,
    .rotrid .a4 .a4 1,
    .xor .a6 .a6 .a7,
    .xor .a4 .a4 .a6,
    .addd .a5 .a5 .a4,
    .ldd .a4 .sp (((i - 2) &&& 0xF) * 8),
    .rotrid .a6 .a4 61,
    .srlid .a7 .a4 6,
    .rotrid .a4 .a4 19,
    .xor .a6 .a6 .a7,
    .xor .a4 .a4 .a6,
    .addd .a5 .a5 .a4] ++
  roundtail i a b c d e f g h

/-- sha2/src/sha512/loongarch64_asm.rs:88-98 -/
def prologue : List Instr := [
  .addid .sp .sp (-128),
  .ldd .t0 .a0 0,
  .ldd .t1 .a0 8,
  .ldd .t2 .a0 16,
  .ldd .t3 .a0 24,
  .ldd .t4 .a0 32,
  .ldd .t5 .a0 40,
  .ldd .t6 .a0 48,
  .ldd .t7 .a0 56]

/-- (no instruction) -/
def setup : List Instr := []

/-- The rounds, sha2/src/sha512/loongarch64_asm.rs:103-182 -/
def rounds : List (List Instr) := [
  rounda 0 .t0 .t1 .t2 .t3 .t4 .t5 .t6 .t7,
  rounda 1 .t7 .t0 .t1 .t2 .t3 .t4 .t5 .t6,
  rounda 2 .t6 .t7 .t0 .t1 .t2 .t3 .t4 .t5,
  rounda 3 .t5 .t6 .t7 .t0 .t1 .t2 .t3 .t4,
  rounda 4 .t4 .t5 .t6 .t7 .t0 .t1 .t2 .t3,
  rounda 5 .t3 .t4 .t5 .t6 .t7 .t0 .t1 .t2,
  rounda 6 .t2 .t3 .t4 .t5 .t6 .t7 .t0 .t1,
  rounda 7 .t1 .t2 .t3 .t4 .t5 .t6 .t7 .t0,
  rounda 8 .t0 .t1 .t2 .t3 .t4 .t5 .t6 .t7,
  rounda 9 .t7 .t0 .t1 .t2 .t3 .t4 .t5 .t6,
  rounda 10 .t6 .t7 .t0 .t1 .t2 .t3 .t4 .t5,
  rounda 11 .t5 .t6 .t7 .t0 .t1 .t2 .t3 .t4,
  rounda 12 .t4 .t5 .t6 .t7 .t0 .t1 .t2 .t3,
  rounda 13 .t3 .t4 .t5 .t6 .t7 .t0 .t1 .t2,
  rounda 14 .t2 .t3 .t4 .t5 .t6 .t7 .t0 .t1,
  rounda 15 .t1 .t2 .t3 .t4 .t5 .t6 .t7 .t0,
  roundb 16 .t0 .t1 .t2 .t3 .t4 .t5 .t6 .t7,
  roundb 17 .t7 .t0 .t1 .t2 .t3 .t4 .t5 .t6,
  roundb 18 .t6 .t7 .t0 .t1 .t2 .t3 .t4 .t5,
  roundb 19 .t5 .t6 .t7 .t0 .t1 .t2 .t3 .t4,
  roundb 20 .t4 .t5 .t6 .t7 .t0 .t1 .t2 .t3,
  roundb 21 .t3 .t4 .t5 .t6 .t7 .t0 .t1 .t2,
  roundb 22 .t2 .t3 .t4 .t5 .t6 .t7 .t0 .t1,
  roundb 23 .t1 .t2 .t3 .t4 .t5 .t6 .t7 .t0,
  roundb 24 .t0 .t1 .t2 .t3 .t4 .t5 .t6 .t7,
  roundb 25 .t7 .t0 .t1 .t2 .t3 .t4 .t5 .t6,
  roundb 26 .t6 .t7 .t0 .t1 .t2 .t3 .t4 .t5,
  roundb 27 .t5 .t6 .t7 .t0 .t1 .t2 .t3 .t4,
  roundb 28 .t4 .t5 .t6 .t7 .t0 .t1 .t2 .t3,
  roundb 29 .t3 .t4 .t5 .t6 .t7 .t0 .t1 .t2,
  roundb 30 .t2 .t3 .t4 .t5 .t6 .t7 .t0 .t1,
  roundb 31 .t1 .t2 .t3 .t4 .t5 .t6 .t7 .t0,
  roundb 32 .t0 .t1 .t2 .t3 .t4 .t5 .t6 .t7,
  roundb 33 .t7 .t0 .t1 .t2 .t3 .t4 .t5 .t6,
  roundb 34 .t6 .t7 .t0 .t1 .t2 .t3 .t4 .t5,
  roundb 35 .t5 .t6 .t7 .t0 .t1 .t2 .t3 .t4,
  roundb 36 .t4 .t5 .t6 .t7 .t0 .t1 .t2 .t3,
  roundb 37 .t3 .t4 .t5 .t6 .t7 .t0 .t1 .t2,
  roundb 38 .t2 .t3 .t4 .t5 .t6 .t7 .t0 .t1,
  roundb 39 .t1 .t2 .t3 .t4 .t5 .t6 .t7 .t0,
  roundb 40 .t0 .t1 .t2 .t3 .t4 .t5 .t6 .t7,
  roundb 41 .t7 .t0 .t1 .t2 .t3 .t4 .t5 .t6,
  roundb 42 .t6 .t7 .t0 .t1 .t2 .t3 .t4 .t5,
  roundb 43 .t5 .t6 .t7 .t0 .t1 .t2 .t3 .t4,
  roundb 44 .t4 .t5 .t6 .t7 .t0 .t1 .t2 .t3,
  roundb 45 .t3 .t4 .t5 .t6 .t7 .t0 .t1 .t2,
  roundb 46 .t2 .t3 .t4 .t5 .t6 .t7 .t0 .t1,
  roundb 47 .t1 .t2 .t3 .t4 .t5 .t6 .t7 .t0,
  roundb 48 .t0 .t1 .t2 .t3 .t4 .t5 .t6 .t7,
  roundb 49 .t7 .t0 .t1 .t2 .t3 .t4 .t5 .t6,
  roundb 50 .t6 .t7 .t0 .t1 .t2 .t3 .t4 .t5,
  roundb 51 .t5 .t6 .t7 .t0 .t1 .t2 .t3 .t4,
  roundb 52 .t4 .t5 .t6 .t7 .t0 .t1 .t2 .t3,
  roundb 53 .t3 .t4 .t5 .t6 .t7 .t0 .t1 .t2,
  roundb 54 .t2 .t3 .t4 .t5 .t6 .t7 .t0 .t1,
  roundb 55 .t1 .t2 .t3 .t4 .t5 .t6 .t7 .t0,
  roundb 56 .t0 .t1 .t2 .t3 .t4 .t5 .t6 .t7,
  roundb 57 .t7 .t0 .t1 .t2 .t3 .t4 .t5 .t6,
  roundb 58 .t6 .t7 .t0 .t1 .t2 .t3 .t4 .t5,
  roundb 59 .t5 .t6 .t7 .t0 .t1 .t2 .t3 .t4,
  roundb 60 .t4 .t5 .t6 .t7 .t0 .t1 .t2 .t3,
  roundb 61 .t3 .t4 .t5 .t6 .t7 .t0 .t1 .t2,
  roundb 62 .t2 .t3 .t4 .t5 .t6 .t7 .t0 .t1,
  roundb 63 .t1 .t2 .t3 .t4 .t5 .t6 .t7 .t0,
  roundb 64 .t0 .t1 .t2 .t3 .t4 .t5 .t6 .t7,
  roundb 65 .t7 .t0 .t1 .t2 .t3 .t4 .t5 .t6,
  roundb 66 .t6 .t7 .t0 .t1 .t2 .t3 .t4 .t5,
  roundb 67 .t5 .t6 .t7 .t0 .t1 .t2 .t3 .t4,
  roundb 68 .t4 .t5 .t6 .t7 .t0 .t1 .t2 .t3,
  roundb 69 .t3 .t4 .t5 .t6 .t7 .t0 .t1 .t2,
  roundb 70 .t2 .t3 .t4 .t5 .t6 .t7 .t0 .t1,
  roundb 71 .t1 .t2 .t3 .t4 .t5 .t6 .t7 .t0,
  roundb 72 .t0 .t1 .t2 .t3 .t4 .t5 .t6 .t7,
  roundb 73 .t7 .t0 .t1 .t2 .t3 .t4 .t5 .t6,
  roundb 74 .t6 .t7 .t0 .t1 .t2 .t3 .t4 .t5,
  roundb 75 .t5 .t6 .t7 .t0 .t1 .t2 .t3 .t4,
  roundb 76 .t4 .t5 .t6 .t7 .t0 .t1 .t2 .t3,
  roundb 77 .t3 .t4 .t5 .t6 .t7 .t0 .t1 .t2,
  roundb 78 .t2 .t3 .t4 .t5 .t6 .t7 .t0 .t1,
  roundb 79 .t1 .t2 .t3 .t4 .t5 .t6 .t7 .t0]

/-- sha2/src/sha512/loongarch64_asm.rs:185-214 -/
def update : List Instr := [
  .ldd .a4 .a0 0,
  .ldd .a5 .a0 8,
  .ldd .a6 .a0 16,
  .ldd .a7 .a0 24,
  .addd .t0 .t0 .a4,
  .addd .t1 .t1 .a5,
  .addd .t2 .t2 .a6,
  .addd .t3 .t3 .a7,
  .ldd .a4 .a0 32,
  .ldd .a5 .a0 40,
  .ldd .a6 .a0 48,
  .ldd .a7 .a0 56,
  .addd .t4 .t4 .a4,
  .addd .t5 .t5 .a5,
  .addd .t6 .t6 .a6,
  .addd .t7 .t7 .a7,
  .std .t0 .a0 0,
  .std .t1 .a0 8,
  .std .t2 .a0 16,
  .std .t3 .a0 24,
  .std .t4 .a0 32,
  .std .t5 .a0 40,
  .std .t6 .a0 48,
  .std .t7 .a0 56,
  .addid .a1 .a1 128,
  .addid .a2 .a2 (-1)]

/-- The loop body from the label `42:` up to `bnez    $a2, 42b`, sha2/src/sha512/loongarch64_asm.rs:215. -/
def body : List Instr := setup ++ rounds.flatten ++ update

/-- sha2/src/sha512/loongarch64_asm.rs:218-218 -/
def epilogue : List Instr := [
  .addid .sp .sp 128]

/-- The whole `asm!` block, with at most `fuel` iterations of the loop. -/
def asm (fuel : Nat) (s : St) : Option St := (loop body .a2 fuel (run prologue s)).map (run epilogue)

end Hashes.Sha512.Loong
