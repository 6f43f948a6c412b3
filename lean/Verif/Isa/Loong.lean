import Verif.Base.Bytes
/-
Semantics of the LoongArch64 instructions used by the `loongarch64_asm.rs` files of /repo, transcribed from the
"LoongArch Reference Manual, Volume 1: Basic Architecture".  Part of the trusted base.

A machine state has 64-bit registers and a byte-addressed little-endian memory with 64-bit addresses (address
arithmetic wraps modulo 2^64).  Only the registers that occur in the modelled assembly are listed; no instruction can
touch any other register.  Memory accesses do not fault.
-/
namespace Hashes.Loong

inductive Reg
  | sp | a0 | a1 | a2 | a3 | a4 | a5 | a6 | a7 | t0 | t1 | t2 | t3 | t4 | t5 | t6 | t7 | t8
  deriving DecidableEq, Repr

abbrev Mem := W64 → Byte

/-- Register file and memory. -/
structure St where
  reg : Reg → W64
  mem : Mem

/-- `n` bytes of memory from address `p`. -/
def bytesAt (m : Mem) (p : W64) (n : Nat) : Bytes := (List.range n).map fun k => m (p + BitVec.ofNat 64 k)
/-- A little-endian `w`-bit load. -/
def ld (w : Nat) (m : Mem) (p : W64) : BitVec w := BitVec.ofNat w (ofLE (bytesAt m p (w / 8)))
/-- Memory after writing the bytes `bs` at `p`. -/
def write (m : Mem) (p : W64) (bs : Bytes) : Mem := fun x =>
  if (x - p).toNat < bs.length then bs.getD (x - p).toNat 0 else m x
/-- A little-endian `w`-bit store. -/
def st {w : Nat} (m : Mem) (p : W64) (v : BitVec w) : Mem := write m p (leBytes (w / 8) v.toNat)

/-- The low half of a register. -/
def lo (x : W64) : W32 := x.setWidth 32
/-- A 32-bit result is written back sign-extended. -/
def sx (x : W32) : W64 := x.signExtend 64

def St.set (s : St) (r : Reg) (v : W64) : St := { s with reg := fun x => if x = r then v else s.reg x }

/-- The instructions.  `imm` of loads and stores is a non-negative `si12`. -/
inductive Instr
  | ldw (rd rj : Reg) (imm : Nat) | ldd (rd rj : Reg) (imm : Nat)
  | stw (rd rj : Reg) (imm : Nat) | std (rd rj : Reg) (imm : Nat)
  | addw (rd rj rk : Reg) | addd (rd rj rk : Reg) | addid (rd rj : Reg) (imm : Int)
  | xor (rd rj rk : Reg) | and (rd rj rk : Reg) | or (rd rj rk : Reg) | andn (rd rj rk : Reg) | orn (rd rj rk : Reg)
  | rotriw (rd rj : Reg) (n : Nat) | rotrid (rd rj : Reg) (n : Nat)
  | srliw (rd rj : Reg) (n : Nat) | srlid (rd rj : Reg) (n : Nat)
  | revb2h (rd rj : Reg) | revbd (rd rj : Reg)
  | move (rd rj : Reg)

/-- REVB.2H on the low word: swap the bytes of each of the two half-words. -/
def revb2h32 (x : W32) : W32 :=
  x.extractLsb' 16 8 ++ x.extractLsb' 24 8 ++ x.extractLsb' 0 8 ++ x.extractLsb' 8 8
/-- REVB.D -/
def revb64 (x : W64) : W64 :=
  x.extractLsb' 0 8 ++ x.extractLsb' 8 8 ++ x.extractLsb' 16 8 ++ x.extractLsb' 24 8 ++ x.extractLsb' 32 8 ++
    x.extractLsb' 40 8 ++ x.extractLsb' 48 8 ++ x.extractLsb' 56 8

/-- One instruction. -/
def exec (s : St) : Instr → St
  | .ldw rd rj imm => s.set rd (sx (ld 32 s.mem (s.reg rj + BitVec.ofNat 64 imm)))
  | .ldd rd rj imm => s.set rd (ld 64 s.mem (s.reg rj + BitVec.ofNat 64 imm))
  | .stw rd rj imm => { s with mem := st s.mem (s.reg rj + BitVec.ofNat 64 imm) (lo (s.reg rd)) }
  | .std rd rj imm => { s with mem := st s.mem (s.reg rj + BitVec.ofNat 64 imm) (s.reg rd) }
  | .addw rd rj rk => s.set rd (sx (lo (s.reg rj) + lo (s.reg rk)))
  | .addd rd rj rk => s.set rd (s.reg rj + s.reg rk)
  | .addid rd rj imm => s.set rd (s.reg rj + BitVec.ofInt 64 imm)
  | .xor rd rj rk => s.set rd (s.reg rj ^^^ s.reg rk)
  | .and rd rj rk => s.set rd (s.reg rj &&& s.reg rk)
  | .or rd rj rk => s.set rd (s.reg rj ||| s.reg rk)
  | .andn rd rj rk => s.set rd (s.reg rj &&& ~~~ s.reg rk)
  | .orn rd rj rk => s.set rd (s.reg rj ||| ~~~ s.reg rk)
  | .rotriw rd rj n => s.set rd (sx ((lo (s.reg rj)).rotateRight n))
  | .rotrid rd rj n => s.set rd ((s.reg rj).rotateRight n)
  | .srliw rd rj n => s.set rd (sx (lo (s.reg rj) >>> n))
  | .srlid rd rj n => s.set rd (s.reg rj >>> n)
  | .revb2h rd rj => s.set rd (sx (revb2h32 (lo (s.reg rj))))
  | .revbd rd rj => s.set rd (revb64 (s.reg rj))
  | .move rd rj => s.set rd (s.reg rj)

/-- A straight-line sequence. -/
def run (p : List Instr) (s : St) : St := p.foldl exec s

/-- `42: body; bnez r, 42b`, for at most `fuel` iterations; `none` if the loop has not ended by then. -/
def loop (body : List Instr) (r : Reg) : Nat → St → Option St
  | 0, _ => none
  | fuel + 1, s =>
    let s := run body s
    if s.reg r = 0 then some s else loop body r fuel s

end Hashes.Loong
