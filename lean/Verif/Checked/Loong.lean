import Verif.Isa.Loong
/-
The memory accesses of a LoongArch instruction sequence: which addresses it reads and writes, in order.  The machine of
Isa/Loong.lean lets every access succeed; here the accesses are recorded, so that one can ask whether they stay inside the
objects that the `asm!` block is entitled to.
-/
namespace Hashes.Loong

/-- One access: `size` bytes from `addr`, a store or a load. -/
structure Access where
  store : Bool
  addr : W64
  size : Nat
  deriving DecidableEq

/-- The access made by one instruction. -/
def accesses (s : St) : Instr → List Access
  | .ldw _ rj imm => [⟨false, s.reg rj + BitVec.ofNat 64 imm, 4⟩]
  | .ldd _ rj imm => [⟨false, s.reg rj + BitVec.ofNat 64 imm, 8⟩]
  | .stw _ rj imm => [⟨true, s.reg rj + BitVec.ofNat 64 imm, 4⟩]
  | .std _ rj imm => [⟨true, s.reg rj + BitVec.ofNat 64 imm, 8⟩]
  | _ => []

/-- The accesses of a straight-line sequence. -/
def trace : List Instr → St → List Access
  | [], _ => []
  | i :: p, s => accesses s i ++ trace p (exec s i)

/-- The accesses of `loop body r fuel s`. -/
def loopTrace (body : List Instr) (r : Reg) : Nat → St → List Access
  | 0, _ => []
  | fuel + 1, s => trace body s ++ if (run body s).reg r = 0 then [] else loopTrace body r fuel (run body s)

/-- The accesses of an `asm!` block `prologue; 42: body; bnez $a2, 42b; epilogue` during its first `fuel` iterations. -/
def asmTrace (prologue body epilogue : List Instr) (fuel : Nat) (s : St) : List Access :=
  trace prologue s ++ loopTrace body .a2 fuel (run prologue s) ++
    ((loop body .a2 fuel (run prologue s)).map (trace epilogue)).getD []

/-- The `n` bytes from `p`: the access lies in them. -/
def Access.within (a : Access) (p : W64) (n : Nat) : Prop := (a.addr - p).toNat + a.size ≤ n

end Hashes.Loong
