import Verif.Isa.Loong
/- Model of /repo/sha2/src/sha256/loongarch64_asm.rs.  Generated by tools/gen_loong.py. -/
namespace Hashes.Sha256.Loong
open Hashes.Loong

/-- `roundtail!`, sha2/src/sha256/loongarch64_asm.rs:45-79 -/
def roundtail (i : Nat) (a : Reg) (b : Reg) (c : Reg) (d : Reg) (e : Reg) (f : Reg) (g : Reg) (h : Reg) : List Instr :=
  [.rotriw .a6 e 11,
    .rotriw .a7 e 25,
    .rotriw .a4 e 6,
    .xor .a6 .a6 .a7,
    .xor .a4 .a4 .a6,
    .xor .a6 g f,
    .ldw .a7 .a3 (i * 4),
    .and .a6 .a6 e,
    .xor .a6 .a6 g,
    .addw .a4 .a4 .a6,
    .addw .a4 .a4 .a7,
    .addw h h .a5,
    .addw h h .a4,
    .addw d d h,
    .rotriw .a6 a 13,
    .rotriw .a7 a 22,
    .rotriw .a4 a 2,
    .xor .a6 .a6 .a7,
    .xor .a4 .a4 .a6,
    .addw h h .a4,
    .or .a4 c b,
    .and .a6 c b,
    .and .a4 .a4 a,
    .or .a4 .a4 .a6,
    .addw h h .a4,
    .stw .a5 .sp ((i &&& 0xF) * 4)]

/-- `rounda!`, sha2/src/sha256/loongarch64_asm.rs:9-18 -/
def rounda (i : Nat) (a : Reg) (b : Reg) (c : Reg) (d : Reg) (e : Reg) (f : Reg) (g : Reg) (h : Reg) : List Instr :=
  [.ldw .a5 .a1 (i * 4),
    .revb2h .a5 .a5,
    .rotriw .a5 .a5 16] ++
  roundtail i a b c d e f g h

/-- `roundb!`, sha2/src/sha256/loongarch64_asm.rs:20-43 -/
def roundb (i : Nat) (a : Reg) (b : Reg) (c : Reg) (d : Reg) (e : Reg) (f : Reg) (g : Reg) (h : Reg) : List Instr :=
  [.ldw .a4 .sp (((i - 15) &&& 0xF) * 4),
    .ldw .a5 .sp (((i - 16) &&& 0xF) * 4),
    .ldw .a6 .sp (((i - 7) &&& 0xF) * 4),
    .addw .a5 .a5 .a6,
    .rotriw .a6 .a4 18,
    .srliw .a7 .a4 3,
    .rotriw .a4 .a4 7,
    .xor .a6 .a6 .a7,
    .xor .a4 .a4 .a6,
    .addw .a5 .a5 .a4,
    .ldw .a4 .sp (((i - 2) &&& 0xF) * 4),
    .rotriw .a6 .a4 19,
    .srliw .a7 .a4 10,
    .rotriw .a4 .a4 17,
    .xor .a6 .a6 .a7,
    .xor .a4 .a4 .a6,
    .addw .a5 .a5 .a4] ++
  roundtail i a b c d e f g h

/-- sha2/src/sha256/loongarch64_asm.rs:89-99 -/
def prologue : List Instr := [
  .addid .sp .sp (-64),
  .ldw .t0 .a0 0,
  .ldw .t1 .a0 4,
  .ldw .t2 .a0 8,
  .ldw .t3 .a0 12,
  .ldw .t4 .a0 16,
  .ldw .t5 .a0 20,
  .ldw .t6 .a0 24,
  .ldw .t7 .a0 28]

/-- (no instruction) -/
def setup : List Instr := []

/-- The rounds, sha2/src/sha256/loongarch64_asm.rs:104-167 -/
def rounds : List (List Instr) := [
  rounda 0 .t0 .t1 .t2 .t3 .t4 .t5 .t6 .t7,
  rounda 1 .t7 .t0 .t1 .t2 .t3 .t4 .t5 .t6,
  rounda 2 .t6 .t7 .t0 .t1 .t2 .t3 .t4 .t5,
  rounda 3 .t5 .t6 .t7 .t0 .t1 .t2 .t3 .t4,
  rounda 4 .t4 .t5 .t6 .t7 .t0 .t1 .t2 .t3,
  rounda 5 .t3 .t4 .t5 .t6 .t7 .t0 .t1 .t2,
  rounda 6 .t2 .t3 .t4 .t5 .t6 .t7 .t0 .t1,
  rounda 7 .t1 .t2 .t3 .t4 .t5 .t6 .t7 .t0,
  rounda 8 .t0 .t1 .t2 .t3 .t4 .t5 .t6 .t7,
  rounda 9 .t7 .t0 .t1 .t2 .t3 .t4 .t5 .t6,
  rounda 10 .t6 .t7 .t0 .t1 .t2 .t3 .t4 .t5,
  rounda 11 .t5 .t6 .t7 .t0 .t1 .t2 .t3 .t4,
  rounda 12 .t4 .t5 .t6 .t7 .t0 .t1 .t2 .t3,
  rounda 13 .t3 .t4 .t5 .t6 .t7 .t0 .t1 .t2,
  rounda 14 .t2 .t3 .t4 .t5 .t6 .t7 .t0 .t1,
  rounda 15 .t1 .t2 .t3 .t4 .t5 .t6 .t7 .t0,
  roundb 16 .t0 .t1 .t2 .t3 .t4 .t5 .t6 .t7,
  roundb 17 .t7 .t0 .t1 .t2 .t3 .t4 .t5 .t6,
  roundb 18 .t6 .t7 .t0 .t1 .t2 .t3 .t4 .t5,
  roundb 19 .t5 .t6 .t7 .t0 .t1 .t2 .t3 .t4,
  roundb 20 .t4 .t5 .t6 .t7 .t0 .t1 .t2 .t3,
  roundb 21 .t3 .t4 .t5 .t6 .t7 .t0 .t1 .t2,
  roundb 22 .t2 .t3 .t4 .t5 .t6 .t7 .t0 .t1,
  roundb 23 .t1 .t2 .t3 .t4 .t5 .t6 .t7 .t0,
  roundb 24 .t0 .t1 .t2 .t3 .t4 .t5 .t6 .t7,
  roundb 25 .t7 .t0 .t1 .t2 .t3 .t4 .t5 .t6,
  roundb 26 .t6 .t7 .t0 .t1 .t2 .t3 .t4 .t5,
  roundb 27 .t5 .t6 .t7 .t0 .t1 .t2 .t3 .t4,
  roundb 28 .t4 .t5 .t6 .t7 .t0 .t1 .t2 .t3,
  roundb 29 .t3 .t4 .t5 .t6 .t7 .t0 .t1 .t2,
  roundb 30 .t2 .t3 .t4 .t5 .t6 .t7 .t0 .t1,
  roundb 31 .t1 .t2 .t3 .t4 .t5 .t6 .t7 .t0,
  roundb 32 .t0 .t1 .t2 .t3 .t4 .t5 .t6 .t7,
  roundb 33 .t7 .t0 .t1 .t2 .t3 .t4 .t5 .t6,
  roundb 34 .t6 .t7 .t0 .t1 .t2 .t3 .t4 .t5,
  roundb 35 .t5 .t6 .t7 .t0 .t1 .t2 .t3 .t4,
  roundb 36 .t4 .t5 .t6 .t7 .t0 .t1 .t2 .t3,
  roundb 37 .t3 .t4 .t5 .t6 .t7 .t0 .t1 .t2,
  roundb 38 .t2 .t3 .t4 .t5 .t6 .t7 .t0 .t1,
  roundb 39 .t1 .t2 .t3 .t4 .t5 .t6 .t7 .t0,
  roundb 40 .t0 .t1 .t2 .t3 .t4 .t5 .t6 .t7,
  roundb 41 .t7 .t0 .t1 .t2 .t3 .t4 .t5 .t6,
  roundb 42 .t6 .t7 .t0 .t1 .t2 .t3 .t4 .t5,
  roundb 43 .t5 .t6 .t7 .t0 .t1 .t2 .t3 .t4,
  roundb 44 .t4 .t5 .t6 .t7 .t0 .t1 .t2 .t3,
  roundb 45 .t3 .t4 .t5 .t6 .t7 .t0 .t1 .t2,
  roundb 46 .t2 .t3 .t4 .t5 .t6 .t7 .t0 .t1,
  roundb 47 .t1 .t2 .t3 .t4 .t5 .t6 .t7 .t0,
  roundb 48 .t0 .t1 .t2 .t3 .t4 .t5 .t6 .t7,
  roundb 49 .t7 .t0 .t1 .t2 .t3 .t4 .t5 .t6,
  roundb 50 .t6 .t7 .t0 .t1 .t2 .t3 .t4 .t5,
  roundb 51 .t5 .t6 .t7 .t0 .t1 .t2 .t3 .t4,
  roundb 52 .t4 .t5 .t6 .t7 .t0 .t1 .t2 .t3,
  roundb 53 .t3 .t4 .t5 .t6 .t7 .t0 .t1 .t2,
  roundb 54 .t2 .t3 .t4 .t5 .t6 .t7 .t0 .t1,
  roundb 55 .t1 .t2 .t3 .t4 .t5 .t6 .t7 .t0,
  roundb 56 .t0 .t1 .t2 .t3 .t4 .t5 .t6 .t7,
  roundb 57 .t7 .t0 .t1 .t2 .t3 .t4 .t5 .t6,
  roundb 58 .t6 .t7 .t0 .t1 .t2 .t3 .t4 .t5,
  roundb 59 .t5 .t6 .t7 .t0 .t1 .t2 .t3 .t4,
  roundb 60 .t4 .t5 .t6 .t7 .t0 .t1 .t2 .t3,
  roundb 61 .t3 .t4 .t5 .t6 .t7 .t0 .t1 .t2,
  roundb 62 .t2 .t3 .t4 .t5 .t6 .t7 .t0 .t1,
  roundb 63 .t1 .t2 .t3 .t4 .t5 .t6 .t7 .t0]

/-- sha2/src/sha256/loongarch64_asm.rs:170-199 -/
def update : List Instr := [
  .ldw .a4 .a0 0,
  .ldw .a5 .a0 4,
  .ldw .a6 .a0 8,
  .ldw .a7 .a0 12,
  .addw .t0 .t0 .a4,
  .addw .t1 .t1 .a5,
  .addw .t2 .t2 .a6,
  .addw .t3 .t3 .a7,
  .ldw .a4 .a0 16,
  .ldw .a5 .a0 20,
  .ldw .a6 .a0 24,
  .ldw .a7 .a0 28,
  .addw .t4 .t4 .a4,
  .addw .t5 .t5 .a5,
  .addw .t6 .t6 .a6,
  .addw .t7 .t7 .a7,
  .stw .t0 .a0 0,
  .stw .t1 .a0 4,
  .stw .t2 .a0 8,
  .stw .t3 .a0 12,
  .stw .t4 .a0 16,
  .stw .t5 .a0 20,
  .stw .t6 .a0 24,
  .stw .t7 .a0 28,
  .addid .a1 .a1 64,
  .addid .a2 .a2 (-1)]

/-- The loop body from the label `42:` up to `bnez    $a2, 42b`, sha2/src/sha256/loongarch64_asm.rs:200. -/
def body : List Instr := setup ++ rounds.flatten ++ update

/-- sha2/src/sha256/loongarch64_asm.rs:203-203 -/
def epilogue : List Instr := [
  .addid .sp .sp 64]

/-- The whole `asm!` block, with at most `fuel` iterations of the loop. -/
def asm (fuel : Nat) (s : St) : Option St := (loop body .a2 fuel (run prologue s)).map (run epilogue)

end Hashes.Sha256.Loong
