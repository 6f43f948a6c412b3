import Verif.Model.Md5Loong
import Verif.Model.Sha1Loong
import Verif.Model.Sha256Loong
import Verif.Model.Sha512Loong
import Verif.Proof.Checked.Loong
/-
C61: code that works through raw pointers or assembly stays inside the objects it was given.

LoongArch: `asmTrace` (Checked/Loong.lean) lists every load and store of an `asm!` block.  `C61_loong_trace` says that this list is
what the machine does.  The other theorems bound the list, whatever the registers and the memory contain.
-/
namespace Hashes.Memory

open Loong

/-- C61 (trace). For any `asm!` block of the shape `prologue; 42: body; bnez $a2, 42b; epilogue` and any initial state: a byte that
no store of the trace covers keeps its value; and for any set `P` of addresses that includes all bytes loaded, two runs that start
with the same registers and the same bytes in `P` end with the same registers and the same bytes in `P`. -/
theorem C61_loong_trace (prologue body epilogue : List Instr) (fuel : Nat) (s s' : St)
    (h : (loop body .a2 fuel (run prologue s)).map (run epilogue) = some s') :
    (∀ x, (∀ a ∈ asmTrace prologue body epilogue fuel s, a.store = true → ¬ (x - a.addr).toNat < a.size) → s'.mem x = s.mem x) ∧
    ∀ (P : W64 → Prop), (∀ a ∈ asmTrace prologue body epilogue fuel s, a.store = false → ∀ x, (x - a.addr).toNat < a.size → P x) →
      ∀ t : St, t.reg = s.reg → (∀ x, P x → t.mem x = s.mem x) →
      ∃ t', (loop body .a2 fuel (run prologue t)).map (run epilogue) = some t' ∧ t'.reg = s'.reg ∧ ∀ x, P x → t'.mem x = s'.mem x := by
  refine ⟨fun x hx => asm_mem hx h, fun P hP t hr hm => ?_⟩
  obtain ⟨t', e, h1, h2⟩ := asm_same (P := P) ⟨hr.symm, fun x hx => (hm x hx).symm⟩ hP h
  exact ⟨t', e, h1.symm, fun x hx => (h2 x hx).symm⟩

/-- C61 (SHA-256, LoongArch). Called for `n > 0` blocks, the assembly loads and stores only in the 32 bytes of the state and the 64
bytes of stack it reserves, and otherwise only loads, from the `n` blocks and from the table of 64 constants. -/
theorem C61_loong_sha256 (s : St) (n fuel : Nat) (hn : 0 < n) (hc : s.reg .a2 = BitVec.ofNat 64 n) (a : Access)
    (ha : a ∈ asmTrace Sha256.Loong.prologue Sha256.Loong.body Sha256.Loong.epilogue fuel s) :
    a.within (s.reg .a0) 32 ∨ a.within (s.reg .sp - 64) 64 ∨
      a.store = false ∧ (a.within (s.reg .a1) (64 * n) ∨ a.within (s.reg .a3) 256) := by
  have e : Sha256.Loong.body = (Sha256.Loong.rounds.flatten ++ Sha256.Loong.update.take 24) ++ next 64 := by
    rw [Sha256.Loong.body, show Sha256.Loong.setup = [] from rfl, List.nil_append, List.append_assoc _ _ (next _)]; rfl
  rw [e] at ha
  exact (asm_ok (z := ⟨32, 64, 256, 64⟩) hn (pre := [.addid .sp .sp (-(64 : Nat))]) (pro := Sha256.Loong.prologue.tail) (lower_ok 64)
    (by decide +kernel) (by decide +kernel) (by decide +kernel) (by decide +kernel) (fun _ => rfl) fuel hc a ha).2

/-- C61 (SHA-512, LoongArch). -/
theorem C61_loong_sha512 (s : St) (n fuel : Nat) (hn : 0 < n) (hc : s.reg .a2 = BitVec.ofNat 64 n) (a : Access)
    (ha : a ∈ asmTrace Sha512.Loong.prologue Sha512.Loong.body Sha512.Loong.epilogue fuel s) :
    a.within (s.reg .a0) 64 ∨ a.within (s.reg .sp - 128) 128 ∨
      a.store = false ∧ (a.within (s.reg .a1) (128 * n) ∨ a.within (s.reg .a3) 640) := by
  have e : Sha512.Loong.body = (Sha512.Loong.rounds.flatten ++ Sha512.Loong.update.take 24) ++ next 128 := by
    rw [Sha512.Loong.body, show Sha512.Loong.setup = [] from rfl, List.nil_append, List.append_assoc _ _ (next _)]; rfl
  rw [e] at ha
  exact (asm_ok (z := ⟨64, 128, 640, 128⟩) hn (pre := [.addid .sp .sp (-(128 : Nat))]) (pro := Sha512.Loong.prologue.tail) (lower_ok 128)
    (by decide +kernel) (by decide +kernel) (by decide +kernel) (by decide +kernel) (fun _ => rfl) fuel hc a ha).2

/-- C61 (SHA-1, LoongArch). The round constants are in registers: no table. -/
theorem C61_loong_sha1 (s : St) (n fuel : Nat) (hn : 0 < n) (hc : s.reg .a2 = BitVec.ofNat 64 n) (a : Access)
    (ha : a ∈ asmTrace Sha1.Loong.prologue Sha1.Loong.body Sha1.Loong.epilogue fuel s) :
    a.within (s.reg .a0) 20 ∨ a.within (s.reg .sp - 64) 64 ∨ a.store = false ∧ a.within (s.reg .a1) (64 * n) := by
  have e : Sha1.Loong.body = (Sha1.Loong.rounds.flatten ++ Sha1.Loong.update.take (Sha1.Loong.update.length - 2)) ++ next 64 := by
    rw [Sha1.Loong.body, show Sha1.Loong.setup = [] from rfl, List.nil_append, List.append_assoc _ _ (next _)]; rfl
  rw [e] at ha
  have h := asm_ok (z := ⟨20, 64, 0, 64⟩) hn (pre := [.addid .sp .sp (-(64 : Nat))]) (pro := Sha1.Loong.prologue.tail) (lower_ok 64)
    (by decide +kernel) (by decide +kernel) (by decide +kernel) (by decide +kernel) (fun _ => rfl) fuel hc a ha
  rcases h with ⟨hs, h | h | ⟨h1, h | h⟩⟩
  · exact .inl h
  · exact .inr (.inl h)
  · exact .inr (.inr ⟨h1, h⟩)
  · exact absurd hs (by simp only [Access.within] at h; omega)

/-- C61 (MD5, LoongArch). The block is declared `readonly, nostack`: it only loads, from the blocks and the table. -/
theorem C61_loong_md5 (s : St) (n fuel : Nat) (hn : 0 < n) (hc : s.reg .a2 = BitVec.ofNat 64 n) (a : Access)
    (ha : a ∈ asmTrace Md5.Loong.prologue Md5.Loong.body Md5.Loong.epilogue fuel s) :
    a.store = false ∧ (a.within (s.reg .a1) (64 * n) ∨ a.within (s.reg .a3) 256) := by
  have e : Md5.Loong.body = (Md5.Loong.setup ++ Md5.Loong.rounds.flatten ++ Md5.Loong.update.take 4) ++ next 64 := by
    rw [Md5.Loong.body, List.append_assoc _ (Md5.Loong.update.take 4)]; rfl
  rw [e] at ha
  have h := asm_ok (z := ⟨0, 64, 256, 0⟩) hn (pre := []) (pro := Md5.Loong.prologue) (d := 0)
    (fun s => ⟨rfl, fun _ _ _ => rfl, (BitVec.sub_zero _).symm⟩)
    (by decide +kernel) (by decide +kernel) (by decide +kernel) (by decide +kernel) (fun _ => rfl) fuel hc a ha
  rcases h with ⟨hs, h | h | h⟩
  · exact absurd hs (by simp only [Access.within] at h; omega)
  · exact absurd hs (by simp only [Access.within] at h; omega)
  · exact h

/-- One iteration of the SHA-256 assembly makes 8 + 16 + 64 + … accesses; the last block of two is read at its end. -/
example : (asmTrace Sha256.Loong.prologue Sha256.Loong.body Sha256.Loong.epilogue 2
    ⟨fun r => if r = .a2 then 2 else if r = .a1 then 1000 else 0, fun _ => 0⟩).contains ⟨false, 1124, 4⟩ = true := by decide +kernel

end Hashes.Memory
