import Verif.Base.Vec
/-
Generated by tools/gen_ubc.py from /repo/sha1-checked/src/ubc_check.rs: the disturbance vectors `SHA1_DVS`
(:60-597) and the statements of `ubc_check` (:602-1076), one entry per statement in source order.
-/
namespace Hashes.Sha1Checked

/-- `Testt`, ubc_check.rs:53-57. -/
inductive Testt
  | T58
  | T65
deriving DecidableEq, Repr

/-- `Info`, ubc_check.rs:41-50. -/
structure Info where
  testt : Testt
  maskb : Nat
  dm : List W32
deriving DecidableEq

/-- DV type=1, K=43, B=0: ubc_check.rs:61 -/
def dvI_43_0 : Info := ⟨.T58, 0, [
  0x8000000, 0x9800000c, 0xd8000010, 0x8000010, 0xb8000010, 0x98000000, 0x60000000, 0x8,
  0xc0000000, 0x90000014, 0x10000010, 0xb8000014, 0x28000000, 0x20000010, 0x48000000, 0x8000018,
  0x60000000, 0x90000010, 0xf0000010, 0x90000008, 0xc0000000, 0x90000010, 0xf0000010, 0xb0000008,
  0x40000000, 0x90000000, 0xf0000010, 0x90000018, 0x60000000, 0x90000010, 0x90000010, 0x90000000,
  0x80000000, 0x10, 0xa0000000, 0x20000000, 0xa0000000, 0x20000010, 0x0, 0x20000010,
  0x20000000, 0x10, 0x20000000, 0x10, 0xa0000000, 0x0, 0x20000000, 0x20000000,
  0x0, 0x0, 0x0, 0x0, 0x0, 0x0, 0x0, 0x0,
  0x0, 0x0, 0x1, 0x20, 0x1, 0x40000002, 0x40000040, 0x40000002,
  0x80000004, 0x80000080, 0x80000006, 0x49, 0x103, 0x80000009, 0x80000012, 0x80000202,
  0x18, 0x164, 0x408, 0x800000e6, 0x8000004c, 0x803, 0x80000161, 0x80000599]⟩

/-- DV type=1, K=44, B=0: ubc_check.rs:78 -/
def dvI_44_0 : Info := ⟨.T58, 1, [
  0xb4000008, 0x8000000, 0x9800000c, 0xd8000010, 0x8000010, 0xb8000010, 0x98000000, 0x60000000,
  0x8, 0xc0000000, 0x90000014, 0x10000010, 0xb8000014, 0x28000000, 0x20000010, 0x48000000,
  0x8000018, 0x60000000, 0x90000010, 0xf0000010, 0x90000008, 0xc0000000, 0x90000010, 0xf0000010,
  0xb0000008, 0x40000000, 0x90000000, 0xf0000010, 0x90000018, 0x60000000, 0x90000010, 0x90000010,
  0x90000000, 0x80000000, 0x10, 0xa0000000, 0x20000000, 0xa0000000, 0x20000010, 0x0,
  0x20000010, 0x20000000, 0x10, 0x20000000, 0x10, 0xa0000000, 0x0, 0x20000000,
  0x20000000, 0x0, 0x0, 0x0, 0x0, 0x0, 0x0, 0x0,
  0x0, 0x0, 0x0, 0x1, 0x20, 0x1, 0x40000002, 0x40000040,
  0x40000002, 0x80000004, 0x80000080, 0x80000006, 0x49, 0x103, 0x80000009, 0x80000012,
  0x80000202, 0x18, 0x164, 0x408, 0x800000e6, 0x8000004c, 0x803, 0x80000161]⟩

/-- DV type=1, K=45, B=0: ubc_check.rs:95 -/
def dvI_45_0 : Info := ⟨.T58, 2, [
  0xf4000014, 0xb4000008, 0x8000000, 0x9800000c, 0xd8000010, 0x8000010, 0xb8000010, 0x98000000,
  0x60000000, 0x8, 0xc0000000, 0x90000014, 0x10000010, 0xb8000014, 0x28000000, 0x20000010,
  0x48000000, 0x8000018, 0x60000000, 0x90000010, 0xf0000010, 0x90000008, 0xc0000000, 0x90000010,
  0xf0000010, 0xb0000008, 0x40000000, 0x90000000, 0xf0000010, 0x90000018, 0x60000000, 0x90000010,
  0x90000010, 0x90000000, 0x80000000, 0x10, 0xa0000000, 0x20000000, 0xa0000000, 0x20000010,
  0x0, 0x20000010, 0x20000000, 0x10, 0x20000000, 0x10, 0xa0000000, 0x0,
  0x20000000, 0x20000000, 0x0, 0x0, 0x0, 0x0, 0x0, 0x0,
  0x0, 0x0, 0x0, 0x0, 0x1, 0x20, 0x1, 0x40000002,
  0x40000040, 0x40000002, 0x80000004, 0x80000080, 0x80000006, 0x49, 0x103, 0x80000009,
  0x80000012, 0x80000202, 0x18, 0x164, 0x408, 0x800000e6, 0x8000004c, 0x803]⟩

/-- DV type=1, K=46, B=0: ubc_check.rs:112 -/
def dvI_46_0 : Info := ⟨.T58, 3, [
  0x2c000010, 0xf4000014, 0xb4000008, 0x8000000, 0x9800000c, 0xd8000010, 0x8000010, 0xb8000010,
  0x98000000, 0x60000000, 0x8, 0xc0000000, 0x90000014, 0x10000010, 0xb8000014, 0x28000000,
  0x20000010, 0x48000000, 0x8000018, 0x60000000, 0x90000010, 0xf0000010, 0x90000008, 0xc0000000,
  0x90000010, 0xf0000010, 0xb0000008, 0x40000000, 0x90000000, 0xf0000010, 0x90000018, 0x60000000,
  0x90000010, 0x90000010, 0x90000000, 0x80000000, 0x10, 0xa0000000, 0x20000000, 0xa0000000,
  0x20000010, 0x0, 0x20000010, 0x20000000, 0x10, 0x20000000, 0x10, 0xa0000000,
  0x0, 0x20000000, 0x20000000, 0x0, 0x0, 0x0, 0x0, 0x0,
  0x0, 0x0, 0x0, 0x0, 0x0, 0x1, 0x20, 0x1,
  0x40000002, 0x40000040, 0x40000002, 0x80000004, 0x80000080, 0x80000006, 0x49, 0x103,
  0x80000009, 0x80000012, 0x80000202, 0x18, 0x164, 0x408, 0x800000e6, 0x8000004c]⟩

/-- DV type=1, K=46, B=2: ubc_check.rs:129 -/
def dvI_46_2 : Info := ⟨.T58, 4, [
  0xb0000040, 0xd0000053, 0xd0000022, 0x20000000, 0x60000032, 0x60000043, 0x20000040, 0xe0000042,
  0x60000002, 0x80000001, 0x20, 0x3, 0x40000052, 0x40000040, 0xe0000052, 0xa0000000,
  0x80000040, 0x20000001, 0x20000060, 0x80000001, 0x40000042, 0xc0000043, 0x40000022, 0x3,
  0x40000042, 0xc0000043, 0xc0000022, 0x1, 0x40000002, 0xc0000043, 0x40000062, 0x80000001,
  0x40000042, 0x40000042, 0x40000002, 0x2, 0x40, 0x80000002, 0x80000000, 0x80000002,
  0x80000040, 0x0, 0x80000040, 0x80000000, 0x40, 0x80000000, 0x40, 0x80000002,
  0x0, 0x80000000, 0x80000000, 0x0, 0x0, 0x0, 0x0, 0x0,
  0x0, 0x0, 0x0, 0x0, 0x0, 0x4, 0x80, 0x4,
  0x9, 0x101, 0x9, 0x12, 0x202, 0x1a, 0x124, 0x40c,
  0x26, 0x4a, 0x80a, 0x60, 0x590, 0x1020, 0x39a, 0x132]⟩

/-- DV type=1, K=47, B=0: ubc_check.rs:145 -/
def dvI_47_0 : Info := ⟨.T58, 5, [
  0xc8000010, 0x2c000010, 0xf4000014, 0xb4000008, 0x8000000, 0x9800000c, 0xd8000010, 0x8000010,
  0xb8000010, 0x98000000, 0x60000000, 0x8, 0xc0000000, 0x90000014, 0x10000010, 0xb8000014,
  0x28000000, 0x20000010, 0x48000000, 0x8000018, 0x60000000, 0x90000010, 0xf0000010, 0x90000008,
  0xc0000000, 0x90000010, 0xf0000010, 0xb0000008, 0x40000000, 0x90000000, 0xf0000010, 0x90000018,
  0x60000000, 0x90000010, 0x90000010, 0x90000000, 0x80000000, 0x10, 0xa0000000, 0x20000000,
  0xa0000000, 0x20000010, 0x0, 0x20000010, 0x20000000, 0x10, 0x20000000, 0x10,
  0xa0000000, 0x0, 0x20000000, 0x20000000, 0x0, 0x0, 0x0, 0x0,
  0x0, 0x0, 0x0, 0x0, 0x0, 0x0, 0x1, 0x20,
  0x1, 0x40000002, 0x40000040, 0x40000002, 0x80000004, 0x80000080, 0x80000006, 0x49,
  0x103, 0x80000009, 0x80000012, 0x80000202, 0x18, 0x164, 0x408, 0x800000e6]⟩

/-- DV type=1, K=47, B=2: ubc_check.rs:162 -/
def dvI_47_2 : Info := ⟨.T58, 6, [
  0x20000043, 0xb0000040, 0xd0000053, 0xd0000022, 0x20000000, 0x60000032, 0x60000043, 0x20000040,
  0xe0000042, 0x60000002, 0x80000001, 0x20, 0x3, 0x40000052, 0x40000040, 0xe0000052,
  0xa0000000, 0x80000040, 0x20000001, 0x20000060, 0x80000001, 0x40000042, 0xc0000043, 0x40000022,
  0x3, 0x40000042, 0xc0000043, 0xc0000022, 0x1, 0x40000002, 0xc0000043, 0x40000062,
  0x80000001, 0x40000042, 0x40000042, 0x40000002, 0x2, 0x40, 0x80000002, 0x80000000,
  0x80000002, 0x80000040, 0x0, 0x80000040, 0x80000000, 0x40, 0x80000000, 0x40,
  0x80000002, 0x0, 0x80000000, 0x80000000, 0x0, 0x0, 0x0, 0x0,
  0x0, 0x0, 0x0, 0x0, 0x0, 0x0, 0x4, 0x80,
  0x4, 0x9, 0x101, 0x9, 0x12, 0x202, 0x1a, 0x124,
  0x40c, 0x26, 0x4a, 0x80a, 0x60, 0x590, 0x1020, 0x39a]⟩

/-- DV type=1, K=48, B=0: ubc_check.rs:178 -/
def dvI_48_0 : Info := ⟨.T58, 7, [
  0xb800000a, 0xc8000010, 0x2c000010, 0xf4000014, 0xb4000008, 0x8000000, 0x9800000c, 0xd8000010,
  0x8000010, 0xb8000010, 0x98000000, 0x60000000, 0x8, 0xc0000000, 0x90000014, 0x10000010,
  0xb8000014, 0x28000000, 0x20000010, 0x48000000, 0x8000018, 0x60000000, 0x90000010, 0xf0000010,
  0x90000008, 0xc0000000, 0x90000010, 0xf0000010, 0xb0000008, 0x40000000, 0x90000000, 0xf0000010,
  0x90000018, 0x60000000, 0x90000010, 0x90000010, 0x90000000, 0x80000000, 0x10, 0xa0000000,
  0x20000000, 0xa0000000, 0x20000010, 0x0, 0x20000010, 0x20000000, 0x10, 0x20000000,
  0x10, 0xa0000000, 0x0, 0x20000000, 0x20000000, 0x0, 0x0, 0x0,
  0x0, 0x0, 0x0, 0x0, 0x0, 0x0, 0x0, 0x1,
  0x20, 0x1, 0x40000002, 0x40000040, 0x40000002, 0x80000004, 0x80000080, 0x80000006,
  0x49, 0x103, 0x80000009, 0x80000012, 0x80000202, 0x18, 0x164, 0x408]⟩

/-- DV type=1, K=48, B=2: ubc_check.rs:195 -/
def dvI_48_2 : Info := ⟨.T58, 8, [
  0xe000002a, 0x20000043, 0xb0000040, 0xd0000053, 0xd0000022, 0x20000000, 0x60000032, 0x60000043,
  0x20000040, 0xe0000042, 0x60000002, 0x80000001, 0x20, 0x3, 0x40000052, 0x40000040,
  0xe0000052, 0xa0000000, 0x80000040, 0x20000001, 0x20000060, 0x80000001, 0x40000042, 0xc0000043,
  0x40000022, 0x3, 0x40000042, 0xc0000043, 0xc0000022, 0x1, 0x40000002, 0xc0000043,
  0x40000062, 0x80000001, 0x40000042, 0x40000042, 0x40000002, 0x2, 0x40, 0x80000002,
  0x80000000, 0x80000002, 0x80000040, 0x0, 0x80000040, 0x80000000, 0x40, 0x80000000,
  0x40, 0x80000002, 0x0, 0x80000000, 0x80000000, 0x0, 0x0, 0x0,
  0x0, 0x0, 0x0, 0x0, 0x0, 0x0, 0x0, 0x4,
  0x80, 0x4, 0x9, 0x101, 0x9, 0x12, 0x202, 0x1a,
  0x124, 0x40c, 0x26, 0x4a, 0x80a, 0x60, 0x590, 0x1020]⟩

/-- DV type=1, K=49, B=0: ubc_check.rs:211 -/
def dvI_49_0 : Info := ⟨.T58, 9, [
  0x18000000, 0xb800000a, 0xc8000010, 0x2c000010, 0xf4000014, 0xb4000008, 0x8000000, 0x9800000c,
  0xd8000010, 0x8000010, 0xb8000010, 0x98000000, 0x60000000, 0x8, 0xc0000000, 0x90000014,
  0x10000010, 0xb8000014, 0x28000000, 0x20000010, 0x48000000, 0x8000018, 0x60000000, 0x90000010,
  0xf0000010, 0x90000008, 0xc0000000, 0x90000010, 0xf0000010, 0xb0000008, 0x40000000, 0x90000000,
  0xf0000010, 0x90000018, 0x60000000, 0x90000010, 0x90000010, 0x90000000, 0x80000000, 0x10,
  0xa0000000, 0x20000000, 0xa0000000, 0x20000010, 0x0, 0x20000010, 0x20000000, 0x10,
  0x20000000, 0x10, 0xa0000000, 0x0, 0x20000000, 0x20000000, 0x0, 0x0,
  0x0, 0x0, 0x0, 0x0, 0x0, 0x0, 0x0, 0x0,
  0x1, 0x20, 0x1, 0x40000002, 0x40000040, 0x40000002, 0x80000004, 0x80000080,
  0x80000006, 0x49, 0x103, 0x80000009, 0x80000012, 0x80000202, 0x18, 0x164]⟩

/-- DV type=1, K=49, B=2: ubc_check.rs:228 -/
def dvI_49_2 : Info := ⟨.T58, 10, [
  0x60000000, 0xe000002a, 0x20000043, 0xb0000040, 0xd0000053, 0xd0000022, 0x20000000, 0x60000032,
  0x60000043, 0x20000040, 0xe0000042, 0x60000002, 0x80000001, 0x20, 0x3, 0x40000052,
  0x40000040, 0xe0000052, 0xa0000000, 0x80000040, 0x20000001, 0x20000060, 0x80000001, 0x40000042,
  0xc0000043, 0x40000022, 0x3, 0x40000042, 0xc0000043, 0xc0000022, 0x1, 0x40000002,
  0xc0000043, 0x40000062, 0x80000001, 0x40000042, 0x40000042, 0x40000002, 0x2, 0x40,
  0x80000002, 0x80000000, 0x80000002, 0x80000040, 0x0, 0x80000040, 0x80000000, 0x40,
  0x80000000, 0x40, 0x80000002, 0x0, 0x80000000, 0x80000000, 0x0, 0x0,
  0x0, 0x0, 0x0, 0x0, 0x0, 0x0, 0x0, 0x0,
  0x4, 0x80, 0x4, 0x9, 0x101, 0x9, 0x12, 0x202,
  0x1a, 0x124, 0x40c, 0x26, 0x4a, 0x80a, 0x60, 0x590]⟩

/-- DV type=1, K=50, B=0: ubc_check.rs:244 -/
def dvI_50_0 : Info := ⟨.T65, 11, [
  0x800000c, 0x18000000, 0xb800000a, 0xc8000010, 0x2c000010, 0xf4000014, 0xb4000008, 0x8000000,
  0x9800000c, 0xd8000010, 0x8000010, 0xb8000010, 0x98000000, 0x60000000, 0x8, 0xc0000000,
  0x90000014, 0x10000010, 0xb8000014, 0x28000000, 0x20000010, 0x48000000, 0x8000018, 0x60000000,
  0x90000010, 0xf0000010, 0x90000008, 0xc0000000, 0x90000010, 0xf0000010, 0xb0000008, 0x40000000,
  0x90000000, 0xf0000010, 0x90000018, 0x60000000, 0x90000010, 0x90000010, 0x90000000, 0x80000000,
  0x10, 0xa0000000, 0x20000000, 0xa0000000, 0x20000010, 0x0, 0x20000010, 0x20000000,
  0x10, 0x20000000, 0x10, 0xa0000000, 0x0, 0x20000000, 0x20000000, 0x0,
  0x0, 0x0, 0x0, 0x0, 0x0, 0x0, 0x0, 0x0,
  0x0, 0x1, 0x20, 0x1, 0x40000002, 0x40000040, 0x40000002, 0x80000004,
  0x80000080, 0x80000006, 0x49, 0x103, 0x80000009, 0x80000012, 0x80000202, 0x18]⟩

/-- DV type=1, K=50, B=2: ubc_check.rs:261 -/
def dvI_50_2 : Info := ⟨.T65, 12, [
  0x20000030, 0x60000000, 0xe000002a, 0x20000043, 0xb0000040, 0xd0000053, 0xd0000022, 0x20000000,
  0x60000032, 0x60000043, 0x20000040, 0xe0000042, 0x60000002, 0x80000001, 0x20, 0x3,
  0x40000052, 0x40000040, 0xe0000052, 0xa0000000, 0x80000040, 0x20000001, 0x20000060, 0x80000001,
  0x40000042, 0xc0000043, 0x40000022, 0x3, 0x40000042, 0xc0000043, 0xc0000022, 0x1,
  0x40000002, 0xc0000043, 0x40000062, 0x80000001, 0x40000042, 0x40000042, 0x40000002, 0x2,
  0x40, 0x80000002, 0x80000000, 0x80000002, 0x80000040, 0x0, 0x80000040, 0x80000000,
  0x40, 0x80000000, 0x40, 0x80000002, 0x0, 0x80000000, 0x80000000, 0x0,
  0x0, 0x0, 0x0, 0x0, 0x0, 0x0, 0x0, 0x0,
  0x0, 0x4, 0x80, 0x4, 0x9, 0x101, 0x9, 0x12,
  0x202, 0x1a, 0x124, 0x40c, 0x26, 0x4a, 0x80a, 0x60]⟩

/-- DV type=1, K=51, B=0: ubc_check.rs:277 -/
def dvI_51_0 : Info := ⟨.T65, 13, [
  0xe8000000, 0x800000c, 0x18000000, 0xb800000a, 0xc8000010, 0x2c000010, 0xf4000014, 0xb4000008,
  0x8000000, 0x9800000c, 0xd8000010, 0x8000010, 0xb8000010, 0x98000000, 0x60000000, 0x8,
  0xc0000000, 0x90000014, 0x10000010, 0xb8000014, 0x28000000, 0x20000010, 0x48000000, 0x8000018,
  0x60000000, 0x90000010, 0xf0000010, 0x90000008, 0xc0000000, 0x90000010, 0xf0000010, 0xb0000008,
  0x40000000, 0x90000000, 0xf0000010, 0x90000018, 0x60000000, 0x90000010, 0x90000010, 0x90000000,
  0x80000000, 0x10, 0xa0000000, 0x20000000, 0xa0000000, 0x20000010, 0x0, 0x20000010,
  0x20000000, 0x10, 0x20000000, 0x10, 0xa0000000, 0x0, 0x20000000, 0x20000000,
  0x0, 0x0, 0x0, 0x0, 0x0, 0x0, 0x0, 0x0,
  0x0, 0x0, 0x1, 0x20, 0x1, 0x40000002, 0x40000040, 0x40000002,
  0x80000004, 0x80000080, 0x80000006, 0x49, 0x103, 0x80000009, 0x80000012, 0x80000202]⟩

/-- DV type=1, K=51, B=2: ubc_check.rs:294 -/
def dvI_51_2 : Info := ⟨.T65, 14, [
  0xa0000003, 0x20000030, 0x60000000, 0xe000002a, 0x20000043, 0xb0000040, 0xd0000053, 0xd0000022,
  0x20000000, 0x60000032, 0x60000043, 0x20000040, 0xe0000042, 0x60000002, 0x80000001, 0x20,
  0x3, 0x40000052, 0x40000040, 0xe0000052, 0xa0000000, 0x80000040, 0x20000001, 0x20000060,
  0x80000001, 0x40000042, 0xc0000043, 0x40000022, 0x3, 0x40000042, 0xc0000043, 0xc0000022,
  0x1, 0x40000002, 0xc0000043, 0x40000062, 0x80000001, 0x40000042, 0x40000042, 0x40000002,
  0x2, 0x40, 0x80000002, 0x80000000, 0x80000002, 0x80000040, 0x0, 0x80000040,
  0x80000000, 0x40, 0x80000000, 0x40, 0x80000002, 0x0, 0x80000000, 0x80000000,
  0x0, 0x0, 0x0, 0x0, 0x0, 0x0, 0x0, 0x0,
  0x0, 0x0, 0x4, 0x80, 0x4, 0x9, 0x101, 0x9,
  0x12, 0x202, 0x1a, 0x124, 0x40c, 0x26, 0x4a, 0x80a]⟩

/-- DV type=1, K=52, B=0: ubc_check.rs:310 -/
def dvI_52_0 : Info := ⟨.T65, 15, [
  0x4000010, 0xe8000000, 0x800000c, 0x18000000, 0xb800000a, 0xc8000010, 0x2c000010, 0xf4000014,
  0xb4000008, 0x8000000, 0x9800000c, 0xd8000010, 0x8000010, 0xb8000010, 0x98000000, 0x60000000,
  0x8, 0xc0000000, 0x90000014, 0x10000010, 0xb8000014, 0x28000000, 0x20000010, 0x48000000,
  0x8000018, 0x60000000, 0x90000010, 0xf0000010, 0x90000008, 0xc0000000, 0x90000010, 0xf0000010,
  0xb0000008, 0x40000000, 0x90000000, 0xf0000010, 0x90000018, 0x60000000, 0x90000010, 0x90000010,
  0x90000000, 0x80000000, 0x10, 0xa0000000, 0x20000000, 0xa0000000, 0x20000010, 0x0,
  0x20000010, 0x20000000, 0x10, 0x20000000, 0x10, 0xa0000000, 0x0, 0x20000000,
  0x20000000, 0x0, 0x0, 0x0, 0x0, 0x0, 0x0, 0x0,
  0x0, 0x0, 0x0, 0x1, 0x20, 0x1, 0x40000002, 0x40000040,
  0x40000002, 0x80000004, 0x80000080, 0x80000006, 0x49, 0x103, 0x80000009, 0x80000012]⟩

/-- DV type=2, K=45, B=0: ubc_check.rs:327 -/
def dvII_45_0 : Info := ⟨.T58, 16, [
  0xec000014, 0xc000002, 0xc0000010, 0xb400001c, 0x2c000004, 0xbc000018, 0xb0000010, 0xc,
  0xb8000010, 0x8000018, 0x78000010, 0x8000014, 0x70000010, 0xb800001c, 0xe8000000, 0xb0000004,
  0x58000010, 0xb000000c, 0x48000000, 0xb0000000, 0xb8000010, 0x98000010, 0xa0000000, 0x0,
  0x0, 0x20000000, 0x80000000, 0x10, 0x0, 0x20000010, 0x20000000, 0x10,
  0x60000000, 0x18, 0xe0000000, 0x90000000, 0x30000010, 0xb0000000, 0x20000000, 0x20000000,
  0xa0000000, 0x10, 0x80000000, 0x20000000, 0x20000000, 0x20000000, 0x80000000, 0x10,
  0x0, 0x20000010, 0xa0000000, 0x0, 0x20000000, 0x20000000, 0x0, 0x0,
  0x0, 0x0, 0x0, 0x0, 0x1, 0x20, 0x1, 0x40000002,
  0x40000041, 0x40000022, 0x80000005, 0xc0000082, 0xc0000046, 0x4000004b, 0x80000107, 0x89,
  0x14, 0x8000024b, 0x11b, 0x8000016d, 0x8000041a, 0x2e4, 0x80000054, 0x967]⟩

/-- DV type=2, K=46, B=0: ubc_check.rs:344 -/
def dvII_46_0 : Info := ⟨.T58, 17, [
  0x2400001c, 0xec000014, 0xc000002, 0xc0000010, 0xb400001c, 0x2c000004, 0xbc000018, 0xb0000010,
  0xc, 0xb8000010, 0x8000018, 0x78000010, 0x8000014, 0x70000010, 0xb800001c, 0xe8000000,
  0xb0000004, 0x58000010, 0xb000000c, 0x48000000, 0xb0000000, 0xb8000010, 0x98000010, 0xa0000000,
  0x0, 0x0, 0x20000000, 0x80000000, 0x10, 0x0, 0x20000010, 0x20000000,
  0x10, 0x60000000, 0x18, 0xe0000000, 0x90000000, 0x30000010, 0xb0000000, 0x20000000,
  0x20000000, 0xa0000000, 0x10, 0x80000000, 0x20000000, 0x20000000, 0x20000000, 0x80000000,
  0x10, 0x0, 0x20000010, 0xa0000000, 0x0, 0x20000000, 0x20000000, 0x0,
  0x0, 0x0, 0x0, 0x0, 0x0, 0x1, 0x20, 0x1,
  0x40000002, 0x40000041, 0x40000022, 0x80000005, 0xc0000082, 0xc0000046, 0x4000004b, 0x80000107,
  0x89, 0x14, 0x8000024b, 0x11b, 0x8000016d, 0x8000041a, 0x2e4, 0x80000054]⟩

/-- DV type=2, K=46, B=2: ubc_check.rs:361 -/
def dvII_46_2 : Info := ⟨.T58, 18, [
  0x90000070, 0xb0000053, 0x30000008, 0x43, 0xd0000072, 0xb0000010, 0xf0000062, 0xc0000042,
  0x30, 0xe0000042, 0x20000060, 0xe0000041, 0x20000050, 0xc0000041, 0xe0000072, 0xa0000003,
  0xc0000012, 0x60000041, 0xc0000032, 0x20000001, 0xc0000002, 0xe0000042, 0x60000042, 0x80000002,
  0x0, 0x0, 0x80000000, 0x2, 0x40, 0x0, 0x80000040, 0x80000000,
  0x40, 0x80000001, 0x60, 0x80000003, 0x40000002, 0xc0000040, 0xc0000002, 0x80000000,
  0x80000000, 0x80000002, 0x40, 0x2, 0x80000000, 0x80000000, 0x80000000, 0x2,
  0x40, 0x0, 0x80000040, 0x80000002, 0x0, 0x80000000, 0x80000000, 0x0,
  0x0, 0x0, 0x0, 0x0, 0x0, 0x4, 0x80, 0x4,
  0x9, 0x105, 0x89, 0x16, 0x20b, 0x11b, 0x12d, 0x41e,
  0x224, 0x50, 0x92e, 0x46c, 0x5b6, 0x106a, 0xb90, 0x152]⟩

/-- DV type=2, K=47, B=0: ubc_check.rs:377 -/
def dvII_47_0 : Info := ⟨.T58, 19, [
  0x20000010, 0x2400001c, 0xec000014, 0xc000002, 0xc0000010, 0xb400001c, 0x2c000004, 0xbc000018,
  0xb0000010, 0xc, 0xb8000010, 0x8000018, 0x78000010, 0x8000014, 0x70000010, 0xb800001c,
  0xe8000000, 0xb0000004, 0x58000010, 0xb000000c, 0x48000000, 0xb0000000, 0xb8000010, 0x98000010,
  0xa0000000, 0x0, 0x0, 0x20000000, 0x80000000, 0x10, 0x0, 0x20000010,
  0x20000000, 0x10, 0x60000000, 0x18, 0xe0000000, 0x90000000, 0x30000010, 0xb0000000,
  0x20000000, 0x20000000, 0xa0000000, 0x10, 0x80000000, 0x20000000, 0x20000000, 0x20000000,
  0x80000000, 0x10, 0x0, 0x20000010, 0xa0000000, 0x0, 0x20000000, 0x20000000,
  0x0, 0x0, 0x0, 0x0, 0x0, 0x0, 0x1, 0x20,
  0x1, 0x40000002, 0x40000041, 0x40000022, 0x80000005, 0xc0000082, 0xc0000046, 0x4000004b,
  0x80000107, 0x89, 0x14, 0x8000024b, 0x11b, 0x8000016d, 0x8000041a, 0x2e4]⟩

/-- DV type=2, K=48, B=0: ubc_check.rs:394 -/
def dvII_48_0 : Info := ⟨.T58, 20, [
  0xbc00001a, 0x20000010, 0x2400001c, 0xec000014, 0xc000002, 0xc0000010, 0xb400001c, 0x2c000004,
  0xbc000018, 0xb0000010, 0xc, 0xb8000010, 0x8000018, 0x78000010, 0x8000014, 0x70000010,
  0xb800001c, 0xe8000000, 0xb0000004, 0x58000010, 0xb000000c, 0x48000000, 0xb0000000, 0xb8000010,
  0x98000010, 0xa0000000, 0x0, 0x0, 0x20000000, 0x80000000, 0x10, 0x0,
  0x20000010, 0x20000000, 0x10, 0x60000000, 0x18, 0xe0000000, 0x90000000, 0x30000010,
  0xb0000000, 0x20000000, 0x20000000, 0xa0000000, 0x10, 0x80000000, 0x20000000, 0x20000000,
  0x20000000, 0x80000000, 0x10, 0x0, 0x20000010, 0xa0000000, 0x0, 0x20000000,
  0x20000000, 0x0, 0x0, 0x0, 0x0, 0x0, 0x0, 0x1,
  0x20, 0x1, 0x40000002, 0x40000041, 0x40000022, 0x80000005, 0xc0000082, 0xc0000046,
  0x4000004b, 0x80000107, 0x89, 0x14, 0x8000024b, 0x11b, 0x8000016d, 0x8000041a]⟩

/-- DV type=2, K=49, B=0: ubc_check.rs:411 -/
def dvII_49_0 : Info := ⟨.T58, 21, [
  0x3c000004, 0xbc00001a, 0x20000010, 0x2400001c, 0xec000014, 0xc000002, 0xc0000010, 0xb400001c,
  0x2c000004, 0xbc000018, 0xb0000010, 0xc, 0xb8000010, 0x8000018, 0x78000010, 0x8000014,
  0x70000010, 0xb800001c, 0xe8000000, 0xb0000004, 0x58000010, 0xb000000c, 0x48000000, 0xb0000000,
  0xb8000010, 0x98000010, 0xa0000000, 0x0, 0x0, 0x20000000, 0x80000000, 0x10,
  0x0, 0x20000010, 0x20000000, 0x10, 0x60000000, 0x18, 0xe0000000, 0x90000000,
  0x30000010, 0xb0000000, 0x20000000, 0x20000000, 0xa0000000, 0x10, 0x80000000, 0x20000000,
  0x20000000, 0x20000000, 0x80000000, 0x10, 0x0, 0x20000010, 0xa0000000, 0x0,
  0x20000000, 0x20000000, 0x0, 0x0, 0x0, 0x0, 0x0, 0x0,
  0x1, 0x20, 0x1, 0x40000002, 0x40000041, 0x40000022, 0x80000005, 0xc0000082,
  0xc0000046, 0x4000004b, 0x80000107, 0x89, 0x14, 0x8000024b, 0x11b, 0x8000016d]⟩

/-- DV type=2, K=49, B=2: ubc_check.rs:428 -/
def dvII_49_2 : Info := ⟨.T58, 22, [
  0xf0000010, 0xf000006a, 0x80000040, 0x90000070, 0xb0000053, 0x30000008, 0x43, 0xd0000072,
  0xb0000010, 0xf0000062, 0xc0000042, 0x30, 0xe0000042, 0x20000060, 0xe0000041, 0x20000050,
  0xc0000041, 0xe0000072, 0xa0000003, 0xc0000012, 0x60000041, 0xc0000032, 0x20000001, 0xc0000002,
  0xe0000042, 0x60000042, 0x80000002, 0x0, 0x0, 0x80000000, 0x2, 0x40,
  0x0, 0x80000040, 0x80000000, 0x40, 0x80000001, 0x60, 0x80000003, 0x40000002,
  0xc0000040, 0xc0000002, 0x80000000, 0x80000000, 0x80000002, 0x40, 0x2, 0x80000000,
  0x80000000, 0x80000000, 0x2, 0x40, 0x0, 0x80000040, 0x80000002, 0x0,
  0x80000000, 0x80000000, 0x0, 0x0, 0x0, 0x0, 0x0, 0x0,
  0x4, 0x80, 0x4, 0x9, 0x105, 0x89, 0x16, 0x20b,
  0x11b, 0x12d, 0x41e, 0x224, 0x50, 0x92e, 0x46c, 0x5b6]⟩

/-- DV type=2, K=50, B=0: ubc_check.rs:444 -/
def dvII_50_0 : Info := ⟨.T65, 23, [
  0xb400001c, 0x3c000004, 0xbc00001a, 0x20000010, 0x2400001c, 0xec000014, 0xc000002, 0xc0000010,
  0xb400001c, 0x2c000004, 0xbc000018, 0xb0000010, 0xc, 0xb8000010, 0x8000018, 0x78000010,
  0x8000014, 0x70000010, 0xb800001c, 0xe8000000, 0xb0000004, 0x58000010, 0xb000000c, 0x48000000,
  0xb0000000, 0xb8000010, 0x98000010, 0xa0000000, 0x0, 0x0, 0x20000000, 0x80000000,
  0x10, 0x0, 0x20000010, 0x20000000, 0x10, 0x60000000, 0x18, 0xe0000000,
  0x90000000, 0x30000010, 0xb0000000, 0x20000000, 0x20000000, 0xa0000000, 0x10, 0x80000000,
  0x20000000, 0x20000000, 0x20000000, 0x80000000, 0x10, 0x0, 0x20000010, 0xa0000000,
  0x0, 0x20000000, 0x20000000, 0x0, 0x0, 0x0, 0x0, 0x0,
  0x0, 0x1, 0x20, 0x1, 0x40000002, 0x40000041, 0x40000022, 0x80000005,
  0xc0000082, 0xc0000046, 0x4000004b, 0x80000107, 0x89, 0x14, 0x8000024b, 0x11b]⟩

/-- DV type=2, K=50, B=2: ubc_check.rs:461 -/
def dvII_50_2 : Info := ⟨.T65, 24, [
  0xd0000072, 0xf0000010, 0xf000006a, 0x80000040, 0x90000070, 0xb0000053, 0x30000008, 0x43,
  0xd0000072, 0xb0000010, 0xf0000062, 0xc0000042, 0x30, 0xe0000042, 0x20000060, 0xe0000041,
  0x20000050, 0xc0000041, 0xe0000072, 0xa0000003, 0xc0000012, 0x60000041, 0xc0000032, 0x20000001,
  0xc0000002, 0xe0000042, 0x60000042, 0x80000002, 0x0, 0x0, 0x80000000, 0x2,
  0x40, 0x0, 0x80000040, 0x80000000, 0x40, 0x80000001, 0x60, 0x80000003,
  0x40000002, 0xc0000040, 0xc0000002, 0x80000000, 0x80000000, 0x80000002, 0x40, 0x2,
  0x80000000, 0x80000000, 0x80000000, 0x2, 0x40, 0x0, 0x80000040, 0x80000002,
  0x0, 0x80000000, 0x80000000, 0x0, 0x0, 0x0, 0x0, 0x0,
  0x0, 0x4, 0x80, 0x4, 0x9, 0x105, 0x89, 0x16,
  0x20b, 0x11b, 0x12d, 0x41e, 0x224, 0x50, 0x92e, 0x46c]⟩

/-- DV type=2, K=51, B=0: ubc_check.rs:477 -/
def dvII_51_0 : Info := ⟨.T65, 25, [
  0xc0000010, 0xb400001c, 0x3c000004, 0xbc00001a, 0x20000010, 0x2400001c, 0xec000014, 0xc000002,
  0xc0000010, 0xb400001c, 0x2c000004, 0xbc000018, 0xb0000010, 0xc, 0xb8000010, 0x8000018,
  0x78000010, 0x8000014, 0x70000010, 0xb800001c, 0xe8000000, 0xb0000004, 0x58000010, 0xb000000c,
  0x48000000, 0xb0000000, 0xb8000010, 0x98000010, 0xa0000000, 0x0, 0x0, 0x20000000,
  0x80000000, 0x10, 0x0, 0x20000010, 0x20000000, 0x10, 0x60000000, 0x18,
  0xe0000000, 0x90000000, 0x30000010, 0xb0000000, 0x20000000, 0x20000000, 0xa0000000, 0x10,
  0x80000000, 0x20000000, 0x20000000, 0x20000000, 0x80000000, 0x10, 0x0, 0x20000010,
  0xa0000000, 0x0, 0x20000000, 0x20000000, 0x0, 0x0, 0x0, 0x0,
  0x0, 0x0, 0x1, 0x20, 0x1, 0x40000002, 0x40000041, 0x40000022,
  0x80000005, 0xc0000082, 0xc0000046, 0x4000004b, 0x80000107, 0x89, 0x14, 0x8000024b]⟩

/-- DV type=2, K=51, B=2: ubc_check.rs:494 -/
def dvII_51_2 : Info := ⟨.T65, 26, [
  0x43, 0xd0000072, 0xf0000010, 0xf000006a, 0x80000040, 0x90000070, 0xb0000053, 0x30000008,
  0x43, 0xd0000072, 0xb0000010, 0xf0000062, 0xc0000042, 0x30, 0xe0000042, 0x20000060,
  0xe0000041, 0x20000050, 0xc0000041, 0xe0000072, 0xa0000003, 0xc0000012, 0x60000041, 0xc0000032,
  0x20000001, 0xc0000002, 0xe0000042, 0x60000042, 0x80000002, 0x0, 0x0, 0x80000000,
  0x2, 0x40, 0x0, 0x80000040, 0x80000000, 0x40, 0x80000001, 0x60,
  0x80000003, 0x40000002, 0xc0000040, 0xc0000002, 0x80000000, 0x80000000, 0x80000002, 0x40,
  0x2, 0x80000000, 0x80000000, 0x80000000, 0x2, 0x40, 0x0, 0x80000040,
  0x80000002, 0x0, 0x80000000, 0x80000000, 0x0, 0x0, 0x0, 0x0,
  0x0, 0x0, 0x4, 0x80, 0x4, 0x9, 0x105, 0x89,
  0x16, 0x20b, 0x11b, 0x12d, 0x41e, 0x224, 0x50, 0x92e]⟩

/-- DV type=2, K=52, B=0: ubc_check.rs:510 -/
def dvII_52_0 : Info := ⟨.T65, 27, [
  0xc000002, 0xc0000010, 0xb400001c, 0x3c000004, 0xbc00001a, 0x20000010, 0x2400001c, 0xec000014,
  0xc000002, 0xc0000010, 0xb400001c, 0x2c000004, 0xbc000018, 0xb0000010, 0xc, 0xb8000010,
  0x8000018, 0x78000010, 0x8000014, 0x70000010, 0xb800001c, 0xe8000000, 0xb0000004, 0x58000010,
  0xb000000c, 0x48000000, 0xb0000000, 0xb8000010, 0x98000010, 0xa0000000, 0x0, 0x0,
  0x20000000, 0x80000000, 0x10, 0x0, 0x20000010, 0x20000000, 0x10, 0x60000000,
  0x18, 0xe0000000, 0x90000000, 0x30000010, 0xb0000000, 0x20000000, 0x20000000, 0xa0000000,
  0x10, 0x80000000, 0x20000000, 0x20000000, 0x20000000, 0x80000000, 0x10, 0x0,
  0x20000010, 0xa0000000, 0x0, 0x20000000, 0x20000000, 0x0, 0x0, 0x0,
  0x0, 0x0, 0x0, 0x1, 0x20, 0x1, 0x40000002, 0x40000041,
  0x40000022, 0x80000005, 0xc0000082, 0xc0000046, 0x4000004b, 0x80000107, 0x89, 0x14]⟩

/-- DV type=2, K=53, B=0: ubc_check.rs:527 -/
def dvII_53_0 : Info := ⟨.T65, 28, [
  0xcc000014, 0xc000002, 0xc0000010, 0xb400001c, 0x3c000004, 0xbc00001a, 0x20000010, 0x2400001c,
  0xec000014, 0xc000002, 0xc0000010, 0xb400001c, 0x2c000004, 0xbc000018, 0xb0000010, 0xc,
  0xb8000010, 0x8000018, 0x78000010, 0x8000014, 0x70000010, 0xb800001c, 0xe8000000, 0xb0000004,
  0x58000010, 0xb000000c, 0x48000000, 0xb0000000, 0xb8000010, 0x98000010, 0xa0000000, 0x0,
  0x0, 0x20000000, 0x80000000, 0x10, 0x0, 0x20000010, 0x20000000, 0x10,
  0x60000000, 0x18, 0xe0000000, 0x90000000, 0x30000010, 0xb0000000, 0x20000000, 0x20000000,
  0xa0000000, 0x10, 0x80000000, 0x20000000, 0x20000000, 0x20000000, 0x80000000, 0x10,
  0x0, 0x20000010, 0xa0000000, 0x0, 0x20000000, 0x20000000, 0x0, 0x0,
  0x0, 0x0, 0x0, 0x0, 0x1, 0x20, 0x1, 0x40000002,
  0x40000041, 0x40000022, 0x80000005, 0xc0000082, 0xc0000046, 0x4000004b, 0x80000107, 0x89]⟩

/-- DV type=2, K=54, B=0: ubc_check.rs:544 -/
def dvII_54_0 : Info := ⟨.T65, 29, [
  0x400001c, 0xcc000014, 0xc000002, 0xc0000010, 0xb400001c, 0x3c000004, 0xbc00001a, 0x20000010,
  0x2400001c, 0xec000014, 0xc000002, 0xc0000010, 0xb400001c, 0x2c000004, 0xbc000018, 0xb0000010,
  0xc, 0xb8000010, 0x8000018, 0x78000010, 0x8000014, 0x70000010, 0xb800001c, 0xe8000000,
  0xb0000004, 0x58000010, 0xb000000c, 0x48000000, 0xb0000000, 0xb8000010, 0x98000010, 0xa0000000,
  0x0, 0x0, 0x20000000, 0x80000000, 0x10, 0x0, 0x20000010, 0x20000000,
  0x10, 0x60000000, 0x18, 0xe0000000, 0x90000000, 0x30000010, 0xb0000000, 0x20000000,
  0x20000000, 0xa0000000, 0x10, 0x80000000, 0x20000000, 0x20000000, 0x20000000, 0x80000000,
  0x10, 0x0, 0x20000010, 0xa0000000, 0x0, 0x20000000, 0x20000000, 0x0,
  0x0, 0x0, 0x0, 0x0, 0x0, 0x1, 0x20, 0x1,
  0x40000002, 0x40000041, 0x40000022, 0x80000005, 0xc0000082, 0xc0000046, 0x4000004b, 0x80000107]⟩

/-- DV type=2, K=55, B=0: ubc_check.rs:561 -/
def dvII_55_0 : Info := ⟨.T65, 30, [
  0x10, 0x400001c, 0xcc000014, 0xc000002, 0xc0000010, 0xb400001c, 0x3c000004, 0xbc00001a,
  0x20000010, 0x2400001c, 0xec000014, 0xc000002, 0xc0000010, 0xb400001c, 0x2c000004, 0xbc000018,
  0xb0000010, 0xc, 0xb8000010, 0x8000018, 0x78000010, 0x8000014, 0x70000010, 0xb800001c,
  0xe8000000, 0xb0000004, 0x58000010, 0xb000000c, 0x48000000, 0xb0000000, 0xb8000010, 0x98000010,
  0xa0000000, 0x0, 0x0, 0x20000000, 0x80000000, 0x10, 0x0, 0x20000010,
  0x20000000, 0x10, 0x60000000, 0x18, 0xe0000000, 0x90000000, 0x30000010, 0xb0000000,
  0x20000000, 0x20000000, 0xa0000000, 0x10, 0x80000000, 0x20000000, 0x20000000, 0x20000000,
  0x80000000, 0x10, 0x0, 0x20000010, 0xa0000000, 0x0, 0x20000000, 0x20000000,
  0x0, 0x0, 0x0, 0x0, 0x0, 0x0, 0x1, 0x20,
  0x1, 0x40000002, 0x40000041, 0x40000022, 0x80000005, 0xc0000082, 0xc0000046, 0x4000004b]⟩

/-- DV type=2, K=56, B=0: ubc_check.rs:578 -/
def dvII_56_0 : Info := ⟨.T65, 31, [
  0x2600001a, 0x10, 0x400001c, 0xcc000014, 0xc000002, 0xc0000010, 0xb400001c, 0x3c000004,
  0xbc00001a, 0x20000010, 0x2400001c, 0xec000014, 0xc000002, 0xc0000010, 0xb400001c, 0x2c000004,
  0xbc000018, 0xb0000010, 0xc, 0xb8000010, 0x8000018, 0x78000010, 0x8000014, 0x70000010,
  0xb800001c, 0xe8000000, 0xb0000004, 0x58000010, 0xb000000c, 0x48000000, 0xb0000000, 0xb8000010,
  0x98000010, 0xa0000000, 0x0, 0x0, 0x20000000, 0x80000000, 0x10, 0x0,
  0x20000010, 0x20000000, 0x10, 0x60000000, 0x18, 0xe0000000, 0x90000000, 0x30000010,
  0xb0000000, 0x20000000, 0x20000000, 0xa0000000, 0x10, 0x80000000, 0x20000000, 0x20000000,
  0x20000000, 0x80000000, 0x10, 0x0, 0x20000010, 0xa0000000, 0x0, 0x20000000,
  0x20000000, 0x0, 0x0, 0x0, 0x0, 0x0, 0x0, 0x1,
  0x20, 0x1, 0x40000002, 0x40000041, 0x40000022, 0x80000005, 0xc0000082, 0xc0000046]⟩

/-- `SHA1_DVS`, ubc_check.rs:60-595. -/
def SHA1_DVS : List Info := [
  dvI_43_0, dvI_44_0, dvI_45_0, dvI_46_0, dvI_46_2, dvI_47_0,
  dvI_47_2, dvI_48_0, dvI_48_2, dvI_49_0, dvI_49_2, dvI_50_0,
  dvI_50_2, dvI_51_0, dvI_51_2, dvI_52_0, dvII_45_0, dvII_46_0,
  dvII_46_2, dvII_47_0, dvII_48_0, dvII_49_0, dvII_49_2, dvII_50_0,
  dvII_50_2, dvII_51_0, dvII_51_2, dvII_52_0, dvII_53_0, dvII_54_0,
  dvII_55_0, dvII_56_0]

/-- A shift applied to a word. -/
inductive Sh
  | n
  | r (k : Nat)
  | l (k : Nat)
deriving DecidableEq

/-- `(w[i] shifted) ^ (w[j] shifted)`. -/
structure Pair where
  i : Nat
  si : Sh
  j : Nat
  sj : Sh
deriving DecidableEq

/-- The statement shapes of `ubc_check`; `dvs` lists the bit numbers or-ed together in the source. -/
inductive Stmt
  /-- `mask &= ((x >> o) & (1 << s)).wrapping_sub(1 << s) | !dvs`, under `if mask & dvs != 0` when `guard`. -/
  | sub (guard : Bool) (x : Pair) (o s : Nat) (dvs : List Nat)
  /-- `mask &= 0.wrapping_sub((x >> o) & (1 << s)) | !dvs`, under `if mask & dvs != 0` when `guard`. -/
  | neg (guard : Bool) (x : Pair) (o s : Nat) (dvs : List Nat)
  /-- `if mask & dv != 0 { mask &= (x << k) | !dv }` -/
  | shl (dv : Nat) (x : Pair) (k : Nat)
  /-- `if mask & dv != 0 { mask &= !(x >> k) | !dv }` -/
  | notShr (dv : Nat) (x : Pair) (k : Nat)
  /-- `if mask & dv != 0 && (x & (1 << s) == 0 || y & (1 << t) != 0 || …) { mask &= !dv }`; the flag is true for `!= 0`. -/
  | test (dv : Nat) (cs : List (Pair × Nat × Bool))
deriving DecidableEq

/-- The unconditional and guarded statements of `ubc_check` before `if mask != 0`, ubc_check.rs:604-925. -/
def ubcStmts : List Stmt := [
  .sub false ⟨44, .n, 45, .n⟩ 29 0 [7, 13, 15, 16, 17, 23, 25], -- :604
  .sub false ⟨49, .n, 50, .n⟩ 29 0 [3, 16, 23, 25, 30, 31], -- :612
  .sub false ⟨48, .n, 49, .n⟩ 29 0 [2, 15, 21, 23, 29, 30], -- :619
  .sub false ⟨47, .n, 50, .r 25⟩ 0 4 [5, 9, 13, 16, 25, 31], -- :626
  .sub false ⟨47, .n, 48, .n⟩ 29 0 [1, 13, 20, 21, 28, 29], -- :633
  .sub false ⟨46, .r 4, 49, .r 29⟩ 0 0 [3, 7, 11, 15, 23, 30], -- :640
  .sub false ⟨46, .n, 47, .n⟩ 29 0 [0, 11, 19, 20, 27, 28], -- :647
  .sub false ⟨45, .r 4, 48, .r 29⟩ 0 0 [2, 5, 9, 13, 21, 29], -- :654
  .sub false ⟨45, .n, 46, .n⟩ 29 0 [9, 15, 17, 19, 25, 27], -- :661
  .sub false ⟨44, .r 4, 47, .r 29⟩ 0 0 [1, 3, 7, 11, 20, 28], -- :668
  .sub false ⟨43, .r 4, 46, .r 29⟩ 0 0 [0, 2, 5, 9, 19, 27], -- :675
  .sub false ⟨43, .n, 44, .n⟩ 29 0 [5, 11, 13, 16, 21, 23], -- :682
  .sub false ⟨42, .r 4, 45, .r 29⟩ 0 0 [1, 3, 7, 15, 17, 25], -- :689
  .sub false ⟨41, .r 4, 44, .r 29⟩ 0 0 [0, 2, 5, 13, 16, 23], -- :696
  .sub false ⟨40, .n, 41, .n⟩ 29 0 [1, 5, 7, 17, 19, 31], -- :703
  .sub false ⟨54, .n, 55, .n⟩ 29 0 [13, 19, 23, 30, 31], -- :710
  .sub false ⟨53, .n, 54, .n⟩ 29 0 [11, 17, 21, 29, 30], -- :712
  .sub false ⟨52, .n, 53, .n⟩ 29 0 [9, 16, 20, 28, 29], -- :714
  .sub false ⟨50, .n, 53, .r 25⟩ 0 4 [11, 15, 17, 20, 29], -- :716
  .sub false ⟨50, .n, 51, .n⟩ 29 0 [5, 17, 25, 27, 31], -- :718
  .sub false ⟨49, .n, 52, .r 25⟩ 0 4 [9, 13, 16, 19, 28], -- :720
  .sub false ⟨48, .n, 51, .r 25⟩ 0 4 [7, 11, 15, 17, 27], -- :722
  .sub false ⟨42, .n, 43, .n⟩ 29 0 [3, 9, 11, 20, 21], -- :724
  .sub false ⟨41, .n, 42, .n⟩ 29 0 [2, 7, 9, 19, 20], -- :726
  .sub false ⟨40, .r 4, 43, .r 29⟩ 0 0 [1, 3, 11, 21, 31], -- :728
  .sub false ⟨39, .r 4, 42, .r 29⟩ 0 0 [0, 2, 9, 20, 30], -- :730
  .sub true ⟨38, .r 4, 41, .r 29⟩ 0 0 [1, 7, 19, 29, 31], -- :732
  .sub false ⟨37, .r 4, 40, .r 29⟩ 0 0 [0, 5, 17, 28, 30], -- :738
  .sub true ⟨55, .n, 56, .n⟩ 29 0 [15, 20, 25, 31], -- :740
  .sub true ⟨52, .n, 55, .r 25⟩ 0 4 [15, 20, 23, 31], -- :744
  .sub true ⟨51, .n, 54, .r 25⟩ 0 4 [13, 19, 21, 30], -- :748
  .sub true ⟨51, .n, 52, .n⟩ 29 0 [7, 19, 27, 28], -- :752
  .sub true ⟨36, .r 4, 40, .r 29⟩ 0 0 [3, 9, 16, 20], -- :756
  .neg true ⟨53, .n, 56, .n⟩ 29 0 [15, 20, 21], -- :760
  .neg true ⟨51, .n, 54, .n⟩ 29 0 [11, 17, 19], -- :764
  .neg true ⟨50, .n, 52, .n⟩ 29 0 [9, 13, 16], -- :768
  .neg true ⟨49, .n, 51, .n⟩ 29 0 [7, 11, 15], -- :772
  .neg true ⟨48, .n, 50, .n⟩ 29 0 [5, 9, 13], -- :776
  .neg true ⟨47, .n, 49, .n⟩ 29 0 [3, 7, 11], -- :780
  .neg true ⟨46, .n, 48, .n⟩ 29 0 [2, 5, 9], -- :784
  .sub false ⟨45, .n, 47, .n⟩ 0 6 [6, 10, 14], -- :788
  .neg true ⟨45, .n, 47, .n⟩ 29 0 [1, 3, 7], -- :790
  .sub false ⟨44, .n, 46, .n⟩ 6 0 [4, 8, 12], -- :794
  .neg true ⟨44, .n, 46, .n⟩ 29 0 [0, 2, 5], -- :796
  .neg false ⟨41, .n, 42, .r 5⟩ 0 1 [8, 18, 26], -- :800
  .neg false ⟨40, .n, 41, .r 5⟩ 0 1 [6, 14, 24], -- :802
  .neg true ⟨40, .n, 42, .n⟩ 4 0 [1, 3, 31], -- :804
  .neg false ⟨39, .n, 40, .r 5⟩ 0 1 [4, 12, 22], -- :808
  .neg true ⟨39, .n, 41, .n⟩ 4 0 [0, 2, 30], -- :810
  .neg true ⟨38, .n, 40, .n⟩ 4 0 [1, 29, 31], -- :814
  .neg true ⟨37, .n, 39, .n⟩ 4 0 [0, 28, 30], -- :818
  .neg false ⟨36, .n, 37, .r 5⟩ 0 1 [6, 12, 18], -- :822
  .sub true ⟨35, .r 4, 39, .r 29⟩ 0 0 [2, 7, 19], -- :824
  .neg true ⟨63, .n, 64, .r 5⟩ 0 0 [7, 20], -- :828
  .neg true ⟨63, .n, 64, .r 5⟩ 0 1 [2, 16], -- :832
  .neg true ⟨62, .n, 63, .r 5⟩ 0 0 [5, 19], -- :836
  .neg true ⟨61, .n, 62, .r 5⟩ 0 0 [3, 17], -- :840
  .neg false ⟨61, .n, 62, .r 5⟩ 0 2 [4, 18], -- :844
  .neg true ⟨60, .n, 61, .r 5⟩ 0 0 [2, 16], -- :846
  .sub true ⟨58, .n, 59, .n⟩ 29 0 [25, 29], -- :850
  .sub true ⟨57, .n, 58, .n⟩ 29 0 [23, 28], -- :853
  .sub true ⟨56, .n, 59, .r 25⟩ 0 4 [27, 29], -- :856
  .neg true ⟨56, .n, 59, .n⟩ 29 0 [25, 27], -- :860
  .sub true ⟨56, .n, 57, .n⟩ 29 0 [21, 27], -- :864
  .sub true ⟨55, .n, 58, .r 25⟩ 0 4 [25, 28], -- :867
  .sub true ⟨54, .n, 57, .r 25⟩ 0 4 [23, 27], -- :871
  .sub true ⟨53, .n, 56, .r 25⟩ 0 4 [21, 25], -- :875
  .sub false ⟨51, .n, 50, .r 5⟩ 0 1 [12, 18], -- :879
  .sub false ⟨48, .n, 50, .n⟩ 0 6 [12, 18], -- :881
  .neg true ⟨48, .n, 55, .n⟩ 29 0 [13, 15], -- :882
  .sub false ⟨47, .n, 49, .n⟩ 0 6 [10, 14], -- :885
  .sub false ⟨48, .n, 47, .r 5⟩ 0 1 [6, 26], -- :886
  .sub false ⟨46, .n, 48, .n⟩ 0 6 [8, 12], -- :888
  .sub false ⟨47, .n, 46, .r 5⟩ 0 1 [4, 24], -- :889
  .neg false ⟨44, .n, 45, .r 5⟩ 0 1 [14, 22], -- :891
  .sub false ⟨43, .n, 45, .n⟩ 0 6 [6, 10], -- :893
  .sub false ⟨42, .n, 44, .n⟩ 6 0 [4, 8], -- :894
  .sub false ⟨43, .n, 42, .r 5⟩ 0 1 [18, 26], -- :895
  .sub false ⟨42, .n, 41, .r 5⟩ 0 1 [14, 24], -- :897
  .sub false ⟨41, .n, 40, .r 5⟩ 0 1 [12, 22], -- :899
  .sub true ⟨39, .n, 43, .r 25⟩ 0 4 [15, 25], -- :901
  .sub true ⟨38, .n, 42, .r 25⟩ 0 4 [13, 23], -- :905
  .neg true ⟨37, .n, 38, .r 5⟩ 0 1 [8, 14], -- :909
  .sub true ⟨37, .n, 41, .r 25⟩ 0 4 [11, 21], -- :913
  .neg true ⟨36, .n, 38, .n⟩ 0 4 [27, 29], -- :917
  .neg false ⟨35, .n, 36, .r 5⟩ 0 1 [4, 10], -- :920
  .sub true ⟨35, .n, 39, .r 25⟩ 0 3 [13, 19]] -- :922

/-- The statements inside the final `if mask != 0`, ubc_check.rs:927-1074. -/
def ubcFinal : List Stmt := [
  .test 0 [(⟨61, .n, 62, .r 5⟩, 1, false), (⟨59, .n, 63, .r 25⟩, 5, true), (⟨58, .n, 63, .r 30⟩, 0, false)], -- :927
  .test 1 [(⟨62, .n, 63, .r 5⟩, 1, false), (⟨60, .n, 64, .r 25⟩, 5, true), (⟨59, .n, 64, .r 30⟩, 0, false)], -- :934
  .notShr 4 ⟨40, .n, 42, .n⟩ 2, -- :941
  .test 6 [(⟨62, .n, 63, .r 5⟩, 2, false), (⟨41, .n, 43, .n⟩, 6, true)], -- :944
  .test 8 [(⟨63, .n, 64, .r 5⟩, 2, false), (⟨48, .n, 49, .l 5⟩, 6, true)], -- :949
  .test 10 [(⟨49, .n, 50, .l 5⟩, 6, true), (⟨42, .n, 50, .n⟩, 1, false), (⟨39, .n, 40, .l 5⟩, 6, true), (⟨38, .n, 40, .n⟩, 1, false)], -- :954
  .shl 11 ⟨36, .n, 37, .n⟩ 7, -- :962
  .shl 12 ⟨43, .n, 51, .n⟩ 11, -- :965
  .shl 13 ⟨37, .n, 38, .n⟩ 9, -- :968
  .test 14 [(⟨51, .n, 52, .l 5⟩, 6, true), (⟨49, .n, 51, .n⟩, 6, true), (⟨37, .n, 37, .r 5⟩, 1, true), (⟨35, .n, 39, .r 25⟩, 5, true)], -- :971
  .shl 15 ⟨38, .n, 39, .n⟩ 11, -- :979
  .shl 18 ⟨47, .n, 51, .n⟩ 17, -- :982
  .test 20 [(⟨36, .n, 40, .r 25⟩, 3, true), (⟨35, .n, 40, .l 2⟩, 30, false)], -- :985
  .test 21 [(⟨37, .n, 41, .r 25⟩, 3, true), (⟨36, .n, 41, .l 2⟩, 30, false)], -- :990
  .test 22 [(⟨53, .n, 54, .l 5⟩, 6, true), (⟨51, .n, 53, .n⟩, 6, true), (⟨50, .n, 54, .n⟩, 1, false), (⟨45, .n, 46, .l 5⟩, 6, true), (⟨37, .n, 41, .r 25⟩, 5, true), (⟨36, .n, 41, .r 30⟩, 0, false)], -- :995
  .test 23 [(⟨55, .n, 58, .n⟩, 29, false), (⟨38, .n, 42, .r 25⟩, 3, true), (⟨37, .n, 42, .l 2⟩, 30, false)], -- :1005
  .test 24 [(⟨54, .n, 55, .l 5⟩, 6, true), (⟨52, .n, 54, .n⟩, 6, true), (⟨51, .n, 55, .n⟩, 1, false), (⟨45, .n, 47, .n⟩, 1, false), (⟨38, .n, 42, .r 25⟩, 5, true), (⟨37, .n, 42, .r 30⟩, 0, false)], -- :1012
  .test 25 [(⟨39, .n, 43, .r 25⟩, 3, true), (⟨38, .n, 43, .l 2⟩, 30, false)], -- :1022
  .test 26 [(⟨55, .n, 56, .l 5⟩, 6, true), (⟨53, .n, 55, .n⟩, 6, true), (⟨52, .n, 56, .n⟩, 1, false), (⟨46, .n, 48, .n⟩, 1, false), (⟨39, .n, 43, .r 25⟩, 5, true), (⟨38, .n, 43, .r 30⟩, 0, false)], -- :1027
  .test 27 [(⟨59, .n, 60, .n⟩, 29, true), (⟨40, .n, 44, .r 25⟩, 3, true), (⟨40, .n, 44, .r 25⟩, 4, true), (⟨39, .n, 44, .l 2⟩, 30, false)], -- :1037
  .test 28 [(⟨58, .n, 61, .n⟩, 29, false), (⟨57, .n, 61, .r 25⟩, 4, true), (⟨41, .n, 45, .r 25⟩, 3, true), (⟨41, .n, 45, .r 25⟩, 4, true)], -- :1045
  .test 29 [(⟨58, .n, 62, .r 25⟩, 4, true), (⟨42, .n, 46, .r 25⟩, 3, true), (⟨42, .n, 46, .r 25⟩, 4, true)], -- :1053
  .test 30 [(⟨59, .n, 63, .r 25⟩, 4, true), (⟨57, .n, 59, .r 25⟩, 4, true), (⟨43, .n, 47, .r 25⟩, 3, true), (⟨43, .n, 47, .r 25⟩, 4, true)], -- :1060
  .test 31 [(⟨60, .n, 64, .r 25⟩, 4, true), (⟨44, .n, 48, .r 25⟩, 3, true), (⟨44, .n, 48, .r 25⟩, 4, true)]] -- :1068

end Hashes.Sha1Checked
