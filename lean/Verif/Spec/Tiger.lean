import Verif.Base.Vec
import Verif.Spec.Padding
/- Tiger, written from R. Anderson and E. Biham, "Tiger: A Fast New Hash Function" (1996), including the designers' S-box
generation procedure (gen.c). Independent of the model. -/
namespace Hashes.Spec.Tiger

/-! ### The hash -/

/-- The three 64-bit registers. -/
abbrev Regs := W64 × W64 × W64

/-- `c_i`: byte `i` of a register, least significant first. -/
def byteOf (c : W64) (i : Nat) : Nat := c.toNat / 2 ^ (8 * i) % 256

/-- `round(a,b,c,x,mul)`; `t k v` is entry `v` of S-box `k+1`. -/
def round (t : Nat → Nat → W64) (r : Regs) (x : W64) (mul : Nat) : Regs :=
  let (a, b, c) := r
  let c := c ^^^ x
  let a := a - (t 0 (byteOf c 0) ^^^ t 1 (byteOf c 2) ^^^ t 2 (byteOf c 4) ^^^ t 3 (byteOf c 6))
  let b := b + (t 3 (byteOf c 1) ^^^ t 2 (byteOf c 3) ^^^ t 1 (byteOf c 5) ^^^ t 0 (byteOf c 7))
  (a, b * BitVec.ofNat 64 mul, c)

/-- The registers take the roles `(a,b,c)`, `(b,c,a)`, `(c,a,b)` in turn. -/
def rot (r : Regs) : Regs := (r.2.1, r.2.2, r.1)

/-- Eight rounds, using the eight words of the block. -/
def pass (t : Nat → Nat → W64) (mul : Nat) (x : List W64) (r : Regs) : Regs :=
  x.foldl (fun r xi => rot (round t r xi mul)) r

/-- What is combined into word `i mod 8` in step `i` of `key_schedule`: `(operation, second operand)` where the
operations cycle `-`, `^`, `+`; the subtracted operand is masked with a constant (first and last step) or with a shifted
complement, alternately `<< 19` and `>> 23`. -/
def keyStep (x : List W64) (i : Nat) : List W64 :=
  let prev := x.getD ((i + 7) % 8) 0
  let prev2 := x.getD ((i + 6) % 8) 0
  let cur := x.getD (i % 8) 0
  x.set (i % 8) <|
    if i % 3 = 1 then cur ^^^ prev
    else if i % 3 = 2 then cur + prev
    else cur - (prev ^^^
      (if i = 0 then (0xA5A5A5A5A5A5A5A5 : W64) else if i = 15 then 0x0123456789ABCDEF
        else if i % 2 = 1 then (~~~prev2) <<< 19 else (~~~prev2) >>> 23))

/-- `key_schedule`: sixteen steps. -/
def keySchedule (x : List W64) : List W64 := (List.range 16).foldl keyStep x

/-- The compression function: three passes with multipliers 5, 7, 9, key schedule in between, feedforward
(`^`, `-`, `+`). -/
def compress (t : Nat → Nat → W64) (s : Regs) (block : Bytes) : Regs :=
  let x := (List.range 8).map (wordLE 64 block)
  let r := pass t 5 x s
  let x := keySchedule x
  let r := pass t 7 x r
  let x := keySchedule x
  let r := pass t 9 x r
  (r.1 ^^^ s.1, r.2.1 - s.2.1, r.2.2 + s.2.2)

/-- Initial value. -/
def IV : Regs := (0x0123456789ABCDEF, 0xFEDCBA9876543210, 0xF096A5B4C3B2E187)

/-- Tiger (`delim = 0x01`) and Tiger2 (`delim = 0x80`): MD-style padding with a 64-bit little-endian bit length. -/
def hash (t : Nat → Nat → W64) (delim : Byte) (m : Bytes) : Bytes :=
  let r := (chunks 64 (mdPad 64 delim (leBytes 8 (8 * m.length)) m)).foldl (compress t) IV
  bytesOfWordsLE [r.1, r.2.1, r.2.2]

/-! ### S-box generation

The designers' generator, on natural numbers below 2^64 (so that the kernel evaluates it with bignum arithmetic).
An S-box is one number, entry `i` in bits `64 i … 64 i + 63`. -/
namespace Gen

/-- `2^64` -/
def M : Nat := 0x10000000000000000

local infixl:58 " ⊻ " => Nat.xor
local infixl:75 " ≫ " => Nat.shiftRight
local infixl:75 " ≪ " => Nat.shiftLeft
local infixl:70 " mod " => Nat.mod
local infixl:65 " ⊞ " => Nat.add
local infixl:65 " ⊟ " => Nat.sub
local infixl:70 " ⊠ " => Nat.mul

/-- Evaluate `n` before continuing (identity; keeps kernel evaluation from delaying the work). -/
def force {α : Type} (n : Nat) (k : Nat → α) : α := match n with | 0 => k 0 | m + 1 => k (m + 1)

structure Boxes where
  t0 : Nat
  t1 : Nat
  t2 : Nat
  t3 : Nat
deriving DecidableEq

def entry (t i : Nat) : Nat := (t ≫ (64 ⊠ i)) mod M

def byteOf (c i : Nat) : Nat := (c ≫ (8 ⊠ i)) mod 256

def sub (a b : Nat) : Nat := (a ⊞ M ⊟ b) mod M

structure Regs where
  a : Nat
  b : Nat
  c : Nat
deriving DecidableEq

/-- One round followed by the register rotation. -/
def round (t : Boxes) (mul : Nat) (r : Regs) (x : Nat) : Regs :=
  force (r.c ⊻ x) fun c =>
  force (sub r.a (entry t.t0 (byteOf c 0) ⊻ entry t.t1 (byteOf c 2) ⊻ entry t.t2 (byteOf c 4) ⊻
    entry t.t3 (byteOf c 6))) fun a =>
  force ((r.b ⊞ (entry t.t3 (byteOf c 1) ⊻ entry t.t2 (byteOf c 3) ⊻ entry t.t1 (byteOf c 5) ⊻
    entry t.t0 (byteOf c 7))) ⊠ mul mod M) fun b =>
  ⟨b, c, a⟩

/-- The three passes; `k1 k2 k3` are the key schedules of the (constant) block. -/
def compress (t : Boxes) (k1 k2 k3 : List Nat) (s : Regs) : Regs :=
  let r := k1.foldl (round t 5) s
  let r := k2.foldl (round t 7) r
  let r := k3.foldl (round t 9) r
  force (r.a ⊻ s.a) fun a => force (sub r.b s.b) fun b => force ((r.c ⊞ s.c) mod M) fun c => ⟨a, b, c⟩

/-- Exchange byte `col` of entries `i` and `j`. -/
def swapByte (t i j col : Nat) : Nat :=
  let d := byteOf (entry t i) col ⊻ byteOf (entry t j) col
  (t ⊻ (d ≪ (64 ⊠ i ⊞ 8 ⊠ col))) ⊻ (d ≪ (64 ⊠ j ⊞ 8 ⊠ col))

/-- Exchange, in every column, entry `i` with the entry selected by that byte of the register `st`. -/
def shuffle (t i st : Nat) : Nat :=
  [0, 1, 2, 3, 4, 5, 6, 7].foldl (fun t col => force (swapByte t i (byteOf st col) col) id) t

/-- Generator state: S-boxes, chaining registers, register in use. -/
structure St where
  t : Boxes
  r : Regs
  abc : Nat
deriving DecidableEq

/-- One step, on S-box `sb`, entry `i`: move on to the next register, recompressing after the third. -/
def step (k1 k2 k3 : List Nat) (s : St) (sb i : Nat) : St :=
  force (s.abc ⊞ 1) fun abc =>
  let (abc, r) := if abc = 3 then (0, compress s.t k1 k2 k3 s.r) else (abc, s.r)
  let st := if abc = 0 then r.a else if abc = 1 then r.b else r.c
  force st fun st =>
  match sb with
  | 0 => force (shuffle s.t.t0 i st) fun t => ⟨⟨t, s.t.t1, s.t.t2, s.t.t3⟩, r, abc⟩
  | 1 => force (shuffle s.t.t1 i st) fun t => ⟨⟨s.t.t0, t, s.t.t2, s.t.t3⟩, r, abc⟩
  | 2 => force (shuffle s.t.t2 i st) fun t => ⟨⟨s.t.t0, s.t.t1, t, s.t.t3⟩, r, abc⟩
  | _ => force (shuffle s.t.t3 i st) fun t => ⟨⟨s.t.t0, s.t.t1, s.t.t2, t⟩, r, abc⟩

/-- All entries of one pass. -/
def genPass (k1 k2 k3 : List Nat) (s : St) : St :=
  (List.range 256).foldl (fun s i => [0, 1, 2, 3].foldl (fun s sb => step k1 k2 k3 s sb i) s) s

/-- The generating string. -/
def text : String := "Tiger - A Fast New Hash Function, by Ross Anderson and Eli Biham"

/-- Its eight little-endian words. -/
def words : List W64 := (List.range 8).map (wordLE 64 (text.toList.map fun c => BitVec.ofNat 8 c.toNat))

/-- Before the first pass entry `i` of every S-box has all bytes equal to `i`. -/
def box0 : Nat := (List.range 256).foldl (fun t i => t + i * 0x0101010101010101 * 2 ^ (64 * i)) 0

def start : St := ⟨⟨box0, box0, box0, box0⟩, ⟨IV.1.toNat, IV.2.1.toNat, IV.2.2.toNat⟩, 2⟩

def ks (n : Nat) : List Nat :=
  ((List.range n).foldl (fun x _ => keySchedule x) words).map BitVec.toNat

/-- Five passes. -/
def boxes : Boxes := ((List.range 5).foldl (fun s _ => genPass (ks 0) (ks 1) (ks 2) s) start).t

/-- S-box `k`. -/
def Boxes.pick (b : Boxes) (k : Nat) : Nat := match k with | 0 => b.t0 | 1 => b.t1 | 2 => b.t2 | _ => b.t3

/-- Entry `v` of generated S-box `k`. -/
def sbox (k v : Nat) : W64 := BitVec.ofNat 64 (entry (boxes.pick k) v)

end Gen

end Hashes.Spec.Tiger
