import Verif.Proof.Checked.Loong
/- The accesses of the LoongArch programs depend on the base registers and the block counter only: a syntactic check and its soundness. -/
namespace Hashes.Loong

/-- Bases of loads and stores are base registers, and what is written to a base register comes from base registers. -/
def openInstr (i : Instr) : Bool :=
  match i with
  | .ldw rd rj _ | .ldd rd rj _ => bases.contains rj && !bases.contains rd
  | .stw _ rj _ | .std _ rj _ => bases.contains rj
  | .addid rd rj _ => bases.contains rj || !bases.contains rd
  | i => keepsBases i

/-- The base registers agree. -/
def AgreeB (s t : St) : Prop := ∀ r ∈ bases, s.reg r = t.reg r

theorem agreeB_set {s t : St} (h : AgreeB s t) {d : Reg} {v w : W64} (hd : bases.contains d = false ∨ v = w) : AgreeB (s.set d v) (t.set d w) := by
  intro r hr
  simp only [St.set]
  split
  · next e =>
    subst e
    rcases hd with hd | hd
    · simp only [List.contains_eq_mem, decide_eq_false_iff_not] at hd; exact absurd hr hd
    · exact hd
  · exact h r hr

theorem exec_agreeB {s t : St} (h : AgreeB s t) {i : Instr} (hi : openInstr i = true) : accesses s i = accesses t i ∧ AgreeB (exec s i) (exec t i) := by
  have mem : ∀ {r : Reg}, bases.contains r = true → s.reg r = t.reg r := fun hr => h _ (by simpa using hr)
  cases i <;> simp only [openInstr, keepsBases, dest, Bool.and_eq_true, Bool.or_eq_true, Bool.not_eq_true'] at hi
  case ldw rd rj _ => exact ⟨by simp only [accesses, mem hi.1], agreeB_set h (.inl hi.2)⟩
  case ldd rd rj _ => exact ⟨by simp only [accesses, mem hi.1], agreeB_set h (.inl hi.2)⟩
  case stw rd rj _ => exact ⟨by simp only [accesses, mem hi], h⟩
  case std rd rj _ => exact ⟨by simp only [accesses, mem hi], h⟩
  case addid rd rj imm =>
    refine ⟨rfl, agreeB_set h ?_⟩
    rcases hi with hi | hi
    · exact .inr (by rw [mem hi])
    · exact .inl hi
  all_goals exact ⟨rfl, agreeB_set h (.inl hi)⟩

theorem run_agreeB {p : List Instr} (hp : p.all openInstr = true) {s t : St} (h : AgreeB s t) : trace p s = trace p t ∧ AgreeB (run p s) (run p t) := by
  induction p generalizing s t with
  | nil => exact ⟨rfl, h⟩
  | cons i p ih =>
    rw [List.all_cons, Bool.and_eq_true] at hp
    obtain ⟨h1, h2⟩ := exec_agreeB h hp.1
    obtain ⟨h3, h4⟩ := ih hp.2 h2
    exact ⟨by rw [trace, trace, h1, h3], h4⟩

theorem loop_agreeB {p : List Instr} (hp : p.all openInstr = true) (fuel : Nat) {s t : St} (h : AgreeB s t) :
    loopTrace p .a2 fuel s = loopTrace p .a2 fuel t ∧ Option.Rel AgreeB (loop p .a2 fuel s) (loop p .a2 fuel t) := by
  induction fuel generalizing s t with
  | zero => exact ⟨rfl, .none⟩
  | succ fuel ih =>
    obtain ⟨h1, h2⟩ := run_agreeB hp h
    have e : (run p s).reg .a2 = (run p t).reg .a2 := h2 _ (by decide)
    obtain ⟨h3, h4⟩ := ih h2
    simp only [loopTrace, loop, h1, e]
    by_cases hz : (run p t).reg .a2 = 0
    · simp only [if_pos hz]; exact ⟨trivial, .some h2⟩
    · simp only [if_neg hz, h3]; exact ⟨trivial, h4⟩

/-- The accesses of an `asm!` block, and whether it has ended, depend on the base registers only. -/
theorem asm_agreeB {pro b epi : List Instr} (h1 : pro.all openInstr = true) (h2 : b.all openInstr = true) (h3 : epi.all openInstr = true)
    (fuel : Nat) {s t : St} (h : AgreeB s t) : asmTrace pro b epi fuel s = asmTrace pro b epi fuel t ∧
      (loop b .a2 fuel (run pro s)).isSome = (loop b .a2 fuel (run pro t)).isSome := by
  obtain ⟨e1, a1⟩ := run_agreeB h1 h
  obtain ⟨e2, a2⟩ := loop_agreeB h2 fuel a1
  unfold asmTrace
  rw [e1, e2]
  generalize loop b .a2 fuel (run pro s) = x at a2
  generalize loop b .a2 fuel (run pro t) = y at a2
  cases a2 with
  | none => exact ⟨rfl, rfl⟩
  | some a => exact ⟨by rw [Option.map_some, Option.map_some, Option.getD_some, Option.getD_some, (run_agreeB h3 a).1], rfl⟩

end Hashes.Loong
