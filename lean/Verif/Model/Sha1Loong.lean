import Verif.Isa.Loong
/- Model of /repo/sha1/src/compress/loongarch64_asm.rs.  Generated by tools/gen_loong.py. -/
namespace Hashes.Sha1.Loong
open Hashes.Loong

/-- `scheldule!`, sha1/src/compress/loongarch64_asm.rs:28-43 -/
def scheldule (i : Nat) (e : Reg) : List Instr :=
  [.ldw .t5 .sp (((i - 3) &&& 0xF) * 4),
    .ldw .t6 .sp (((i - 8) &&& 0xF) * 4),
    .ldw .t7 .sp (((i - 14) &&& 0xF) * 4),
    .ldw .t8 .sp (((i - 16) &&& 0xF) * 4),
    .xor .t5 .t5 .t6,
    .xor .t5 .t5 .t7,
    .xor .t5 .t5 .t8,
    .rotriw .t5 .t5 31,
    .addw e e .t5,
    .stw .t5 .sp ((i &&& 0xF) * 4)]

/-- `roundtail!`, sha1/src/compress/loongarch64_asm.rs:92-102 -/
def roundtail (a : Reg) (b : Reg) (e : Reg) (i : Nat) (k : Reg) : List Instr :=
  [.rotriw b b 2,
    .addw e e .t5,
    .addw e e k,
    .rotriw .t5 a 27,
    .addw e e .t5]

/-- `round0a!`, sha1/src/compress/loongarch64_asm.rs:12-26 -/
def round0a (a : Reg) (b : Reg) (c : Reg) (d : Reg) (e : Reg) (i : Nat) : List Instr :=
  [.ldw .t5 .a1 (i * 4),
    .revb2h .t5 .t5,
    .rotriw .t5 .t5 16,
    .addw e e .t5,
    .stw .t5 .sp (i * 4),
    .xor .t5 c d,
    .and .t5 .t5 b,
    .xor .t5 .t5 d] ++
  roundtail a b e i .a4

/-- `round0b!`, sha1/src/compress/loongarch64_asm.rs:45-55 -/
def round0b (a : Reg) (b : Reg) (c : Reg) (d : Reg) (e : Reg) (i : Nat) : List Instr :=
  scheldule i e ++
  [.xor .t5 c d,
    .and .t5 .t5 b,
    .xor .t5 .t5 d] ++
  roundtail a b e i .a4

/-- `round1!`, sha1/src/compress/loongarch64_asm.rs:57-66 -/
def round1 (a : Reg) (b : Reg) (c : Reg) (d : Reg) (e : Reg) (i : Nat) : List Instr :=
  scheldule i e ++
  [.xor .t5 b c,
    .xor .t5 .t5 d] ++
  roundtail a b e i .a5

/-- `round2!`, sha1/src/compress/loongarch64_asm.rs:68-79 -/
def round2 (a : Reg) (b : Reg) (c : Reg) (d : Reg) (e : Reg) (i : Nat) : List Instr :=
  scheldule i e ++
  [.or .t5 c d,
    .and .t5 .t5 b,
    .and .t7 c d,
    .or .t5 .t5 .t7] ++
  roundtail a b e i .a6

/-- `round3!`, sha1/src/compress/loongarch64_asm.rs:81-90 -/
def round3 (a : Reg) (b : Reg) (c : Reg) (d : Reg) (e : Reg) (i : Nat) : List Instr :=
  scheldule i e ++
  [.xor .t5 b c,
    .xor .t5 .t5 d] ++
  roundtail a b e i .a7

/-- sha1/src/compress/loongarch64_asm.rs:112-119 -/
def prologue : List Instr := [
  .addid .sp .sp (-64),
  .ldw .t0 .a0 0,
  .ldw .t1 .a0 4,
  .ldw .t2 .a0 8,
  .ldw .t3 .a0 12,
  .ldw .t4 .a0 16]

/-- (no instruction) -/
def setup : List Instr := []

/-- The rounds, sha1/src/compress/loongarch64_asm.rs:123-202 -/
def rounds : List (List Instr) := [
  round0a .t0 .t1 .t2 .t3 .t4 0,
  round0a .t4 .t0 .t1 .t2 .t3 1,
  round0a .t3 .t4 .t0 .t1 .t2 2,
  round0a .t2 .t3 .t4 .t0 .t1 3,
  round0a .t1 .t2 .t3 .t4 .t0 4,
  round0a .t0 .t1 .t2 .t3 .t4 5,
  round0a .t4 .t0 .t1 .t2 .t3 6,
  round0a .t3 .t4 .t0 .t1 .t2 7,
  round0a .t2 .t3 .t4 .t0 .t1 8,
  round0a .t1 .t2 .t3 .t4 .t0 9,
  round0a .t0 .t1 .t2 .t3 .t4 10,
  round0a .t4 .t0 .t1 .t2 .t3 11,
  round0a .t3 .t4 .t0 .t1 .t2 12,
  round0a .t2 .t3 .t4 .t0 .t1 13,
  round0a .t1 .t2 .t3 .t4 .t0 14,
  round0a .t0 .t1 .t2 .t3 .t4 15,
  round0b .t4 .t0 .t1 .t2 .t3 16,
  round0b .t3 .t4 .t0 .t1 .t2 17,
  round0b .t2 .t3 .t4 .t0 .t1 18,
  round0b .t1 .t2 .t3 .t4 .t0 19,
  round1 .t0 .t1 .t2 .t3 .t4 20,
  round1 .t4 .t0 .t1 .t2 .t3 21,
  round1 .t3 .t4 .t0 .t1 .t2 22,
  round1 .t2 .t3 .t4 .t0 .t1 23,
  round1 .t1 .t2 .t3 .t4 .t0 24,
  round1 .t0 .t1 .t2 .t3 .t4 25,
  round1 .t4 .t0 .t1 .t2 .t3 26,
  round1 .t3 .t4 .t0 .t1 .t2 27,
  round1 .t2 .t3 .t4 .t0 .t1 28,
  round1 .t1 .t2 .t3 .t4 .t0 29,
  round1 .t0 .t1 .t2 .t3 .t4 30,
  round1 .t4 .t0 .t1 .t2 .t3 31,
  round1 .t3 .t4 .t0 .t1 .t2 32,
  round1 .t2 .t3 .t4 .t0 .t1 33,
  round1 .t1 .t2 .t3 .t4 .t0 34,
  round1 .t0 .t1 .t2 .t3 .t4 35,
  round1 .t4 .t0 .t1 .t2 .t3 36,
  round1 .t3 .t4 .t0 .t1 .t2 37,
  round1 .t2 .t3 .t4 .t0 .t1 38,
  round1 .t1 .t2 .t3 .t4 .t0 39,
  round2 .t0 .t1 .t2 .t3 .t4 40,
  round2 .t4 .t0 .t1 .t2 .t3 41,
  round2 .t3 .t4 .t0 .t1 .t2 42,
  round2 .t2 .t3 .t4 .t0 .t1 43,
  round2 .t1 .t2 .t3 .t4 .t0 44,
  round2 .t0 .t1 .t2 .t3 .t4 45,
  round2 .t4 .t0 .t1 .t2 .t3 46,
  round2 .t3 .t4 .t0 .t1 .t2 47,
  round2 .t2 .t3 .t4 .t0 .t1 48,
  round2 .t1 .t2 .t3 .t4 .t0 49,
  round2 .t0 .t1 .t2 .t3 .t4 50,
  round2 .t4 .t0 .t1 .t2 .t3 51,
  round2 .t3 .t4 .t0 .t1 .t2 52,
  round2 .t2 .t3 .t4 .t0 .t1 53,
  round2 .t1 .t2 .t3 .t4 .t0 54,
  round2 .t0 .t1 .t2 .t3 .t4 55,
  round2 .t4 .t0 .t1 .t2 .t3 56,
  round2 .t3 .t4 .t0 .t1 .t2 57,
  round2 .t2 .t3 .t4 .t0 .t1 58,
  round2 .t1 .t2 .t3 .t4 .t0 59,
  round3 .t0 .t1 .t2 .t3 .t4 60,
  round3 .t4 .t0 .t1 .t2 .t3 61,
  round3 .t3 .t4 .t0 .t1 .t2 62,
  round3 .t2 .t3 .t4 .t0 .t1 63,
  round3 .t1 .t2 .t3 .t4 .t0 64,
  round3 .t0 .t1 .t2 .t3 .t4 65,
  round3 .t4 .t0 .t1 .t2 .t3 66,
  round3 .t3 .t4 .t0 .t1 .t2 67,
  round3 .t2 .t3 .t4 .t0 .t1 68,
  round3 .t1 .t2 .t3 .t4 .t0 69,
  round3 .t0 .t1 .t2 .t3 .t4 70,
  round3 .t4 .t0 .t1 .t2 .t3 71,
  round3 .t3 .t4 .t0 .t1 .t2 72,
  round3 .t2 .t3 .t4 .t0 .t1 73,
  round3 .t1 .t2 .t3 .t4 .t0 74,
  round3 .t0 .t1 .t2 .t3 .t4 75,
  round3 .t4 .t0 .t1 .t2 .t3 76,
  round3 .t3 .t4 .t0 .t1 .t2 77,
  round3 .t2 .t3 .t4 .t0 .t1 78,
  round3 .t1 .t2 .t3 .t4 .t0 79]

/-- sha1/src/compress/loongarch64_asm.rs:205-225 -/
def update : List Instr := [
  .ldw .t5 .a0 0,
  .ldw .t6 .a0 4,
  .ldw .t7 .a0 8,
  .ldw .t8 .a0 12,
  .addw .t0 .t0 .t5,
  .ldw .t5 .a0 16,
  .addw .t1 .t1 .t6,
  .addw .t2 .t2 .t7,
  .addw .t3 .t3 .t8,
  .addw .t4 .t4 .t5,
  .stw .t0 .a0 0,
  .stw .t1 .a0 4,
  .stw .t2 .a0 8,
  .stw .t3 .a0 12,
  .stw .t4 .a0 16,
  .addid .a1 .a1 64,
  .addid .a2 .a2 (-1)]

/-- The loop body from the label `42:` up to `bnez    $a2, 42b`, sha1/src/compress/loongarch64_asm.rs:226. -/
def body : List Instr := setup ++ rounds.flatten ++ update

/-- sha1/src/compress/loongarch64_asm.rs:229-229 -/
def epilogue : List Instr := [
  .addid .sp .sp 64]

/-- The whole `asm!` block, with at most `fuel` iterations of the loop. -/
def asm (fuel : Nat) (s : St) : Option St := (loop body .a2 fuel (run prologue s)).map (run epilogue)

end Hashes.Sha1.Loong
