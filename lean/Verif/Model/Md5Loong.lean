import Verif.Isa.Loong
/- Model of /repo/md5/src/compress/loongarch64_asm.rs.  Generated by tools/gen_loong.py. -/
namespace Hashes.Md5.Loong
open Hashes.Loong

/-- `roundtail!`, md5/src/compress/loongarch64_asm.rs:51-63 -/
def roundtail (a : Reg) (b : Reg) (k : Nat) (s : Nat) (i : Nat) : List Instr :=
  [.ldw .t5 .a3 (i * 4),
    .ldw .t6 .a1 (k * 4),
    .addw a a .t5,
    .addw a a .t6,
    .addw a a .t4,
    .rotriw a a (32 - s),
    .addw a a b]

/-- `round0!`, md5/src/compress/loongarch64_asm.rs:9-18 -/
def round0 (a : Reg) (b : Reg) (c : Reg) (d : Reg) (k : Nat) (s : Nat) (i : Nat) : List Instr :=
  [.xor .t4 c d,
    .and .t4 .t4 b,
    .xor .t4 .t4 d] ++
  roundtail a b k s i

/-- `round1!`, md5/src/compress/loongarch64_asm.rs:20-29 -/
def round1 (a : Reg) (b : Reg) (c : Reg) (d : Reg) (k : Nat) (s : Nat) (i : Nat) : List Instr :=
  [.andn .t4 c d,
    .and .t5 d b,
    .or .t4 .t4 .t5] ++
  roundtail a b k s i

/-- `round2!`, md5/src/compress/loongarch64_asm.rs:31-39 -/
def round2 (a : Reg) (b : Reg) (c : Reg) (d : Reg) (k : Nat) (s : Nat) (i : Nat) : List Instr :=
  [.xor .t4 c d,
    .xor .t4 .t4 b] ++
  roundtail a b k s i

/-- `round3!`, md5/src/compress/loongarch64_asm.rs:41-49 -/
def round3 (a : Reg) (b : Reg) (c : Reg) (d : Reg) (k : Nat) (s : Nat) (i : Nat) : List Instr :=
  [.orn .t4 b d,
    .xor .t4 .t4 c] ++
  roundtail a b k s i

/-- (no instruction) -/
def prologue : List Instr := []

/-- md5/src/compress/loongarch64_asm.rs:74-77 -/
def setup : List Instr := [
  .move .t0 .a4,
  .move .t1 .a5,
  .move .t2 .a6,
  .move .t3 .a7]

/-- The rounds, md5/src/compress/loongarch64_asm.rs:80-146 -/
def rounds : List (List Instr) := [
  round0 .t0 .t1 .t2 .t3 0 7 0,
  round0 .t3 .t0 .t1 .t2 1 12 1,
  round0 .t2 .t3 .t0 .t1 2 17 2,
  round0 .t1 .t2 .t3 .t0 3 22 3,
  round0 .t0 .t1 .t2 .t3 4 7 4,
  round0 .t3 .t0 .t1 .t2 5 12 5,
  round0 .t2 .t3 .t0 .t1 6 17 6,
  round0 .t1 .t2 .t3 .t0 7 22 7,
  round0 .t0 .t1 .t2 .t3 8 7 8,
  round0 .t3 .t0 .t1 .t2 9 12 9,
  round0 .t2 .t3 .t0 .t1 10 17 10,
  round0 .t1 .t2 .t3 .t0 11 22 11,
  round0 .t0 .t1 .t2 .t3 12 7 12,
  round0 .t3 .t0 .t1 .t2 13 12 13,
  round0 .t2 .t3 .t0 .t1 14 17 14,
  round0 .t1 .t2 .t3 .t0 15 22 15,
  round1 .t0 .t1 .t2 .t3 1 5 16,
  round1 .t3 .t0 .t1 .t2 6 9 17,
  round1 .t2 .t3 .t0 .t1 11 14 18,
  round1 .t1 .t2 .t3 .t0 0 20 19,
  round1 .t0 .t1 .t2 .t3 5 5 20,
  round1 .t3 .t0 .t1 .t2 10 9 21,
  round1 .t2 .t3 .t0 .t1 15 14 22,
  round1 .t1 .t2 .t3 .t0 4 20 23,
  round1 .t0 .t1 .t2 .t3 9 5 24,
  round1 .t3 .t0 .t1 .t2 14 9 25,
  round1 .t2 .t3 .t0 .t1 3 14 26,
  round1 .t1 .t2 .t3 .t0 8 20 27,
  round1 .t0 .t1 .t2 .t3 13 5 28,
  round1 .t3 .t0 .t1 .t2 2 9 29,
  round1 .t2 .t3 .t0 .t1 7 14 30,
  round1 .t1 .t2 .t3 .t0 12 20 31,
  round2 .t0 .t1 .t2 .t3 5 4 32,
  round2 .t3 .t0 .t1 .t2 8 11 33,
  round2 .t2 .t3 .t0 .t1 11 16 34,
  round2 .t1 .t2 .t3 .t0 14 23 35,
  round2 .t0 .t1 .t2 .t3 1 4 36,
  round2 .t3 .t0 .t1 .t2 4 11 37,
  round2 .t2 .t3 .t0 .t1 7 16 38,
  round2 .t1 .t2 .t3 .t0 10 23 39,
  round2 .t0 .t1 .t2 .t3 13 4 40,
  round2 .t3 .t0 .t1 .t2 0 11 41,
  round2 .t2 .t3 .t0 .t1 3 16 42,
  round2 .t1 .t2 .t3 .t0 6 23 43,
  round2 .t0 .t1 .t2 .t3 9 4 44,
  round2 .t3 .t0 .t1 .t2 12 11 45,
  round2 .t2 .t3 .t0 .t1 15 16 46,
  round2 .t1 .t2 .t3 .t0 2 23 47,
  round3 .t0 .t1 .t2 .t3 0 6 48,
  round3 .t3 .t0 .t1 .t2 7 10 49,
  round3 .t2 .t3 .t0 .t1 14 15 50,
  round3 .t1 .t2 .t3 .t0 5 21 51,
  round3 .t0 .t1 .t2 .t3 12 6 52,
  round3 .t3 .t0 .t1 .t2 3 10 53,
  round3 .t2 .t3 .t0 .t1 10 15 54,
  round3 .t1 .t2 .t3 .t0 1 21 55,
  round3 .t0 .t1 .t2 .t3 8 6 56,
  round3 .t3 .t0 .t1 .t2 15 10 57,
  round3 .t2 .t3 .t0 .t1 6 15 58,
  round3 .t1 .t2 .t3 .t0 13 21 59,
  round3 .t0 .t1 .t2 .t3 4 6 60,
  round3 .t3 .t0 .t1 .t2 11 10 61,
  round3 .t2 .t3 .t0 .t1 2 15 62,
  round3 .t1 .t2 .t3 .t0 9 21 63]

/-- md5/src/compress/loongarch64_asm.rs:148-155 -/
def update : List Instr := [
  .addw .a4 .a4 .t0,
  .addw .a5 .a5 .t1,
  .addw .a6 .a6 .t2,
  .addw .a7 .a7 .t3,
  .addid .a1 .a1 64,
  .addid .a2 .a2 (-1)]

/-- The loop body from the label `42:` up to `bnez    $a2, 42b`, md5/src/compress/loongarch64_asm.rs:156. -/
def body : List Instr := setup ++ rounds.flatten ++ update

/-- (no instruction) -/
def epilogue : List Instr := []

/-- The whole `asm!` block, with at most `fuel` iterations of the loop. -/
def asm (fuel : Nat) (s : St) : Option St := (loop body .a2 fuel (run prologue s)).map (run epilogue)

end Hashes.Md5.Loong
