import Verif.Proof.Loong
/- Which registers a program reads before writing them. -/
namespace Hashes.Loong

/-- The registers an instruction reads. -/
def srcs : Instr → List Reg
  | .ldw _ rj _ | .ldd _ rj _ | .addid _ rj _ | .rotriw _ rj _ | .rotrid _ rj _ | .srliw _ rj _ | .srlid _ rj _ | .revb2h _ rj | .revbd _ rj
  | .move _ rj => [rj]
  | .stw rd rj _ | .std rd rj _ => [rd, rj]
  | .addw _ rj rk | .addd _ rj rk | .xor _ rj rk | .and _ rj rk | .or _ rj rk | .andn _ rj rk | .orn _ rj rk => [rj, rk]

/-- Every register a program reads is in `R` or was written before; the result is `R` with the written registers. -/
def uses : List Reg → List Instr → Option (List Reg)
  | R, [] => some R
  | R, i :: p => if (srcs i).all (R.contains ·) then
      uses (match dest i with | none => R | some d => if R.contains d then R else d :: R) p
    else none

/-- Same memory and same values of the registers in `R`. -/
def Agree (R : List Reg) (s t : St) : Prop := s.mem = t.mem ∧ ∀ r ∈ R, s.reg r = t.reg r

theorem Agree.mono {R R' : List Reg} {s t : St} (h : Agree R s t) (hs : ∀ r ∈ R', r ∈ R) : Agree R' s t :=
  ⟨h.1, fun r hr => h.2 r (hs r hr)⟩

theorem exec_agree {R : List Reg} {s t : St} (h : Agree R s t) {i : Instr} (hi : (srcs i).all (R.contains ·) = true) :
    Agree (match dest i with | none => R | some d => if R.contains d then R else d :: R) (exec s i) (exec t i) := by
  have hs : ∀ r ∈ srcs i, s.reg r = t.reg r := by
    intro r hr
    exact h.2 r (by simpa using List.all_eq_true.1 hi r hr)
  have key : ∀ (d : Reg) (v w : W64), v = w →
      Agree (if R.contains d then R else d :: R) (s.set d v) (t.set d w) := by
    intro d v w e
    refine ⟨h.1, fun r hr => ?_⟩
    have hr' : r = d ∨ r ∈ R := by
      split at hr
      · exact .inr hr
      · exact List.mem_cons.1 hr
    simp only [St.set]
    split
    · exact e
    · rename_i hne
      exact h.2 r (hr'.resolve_left hne)
  cases i <;> simp only [srcs, List.mem_cons, List.not_mem_nil, or_false, forall_eq_or_imp, forall_eq] at hs <;>
    first
    | (refine ⟨?_, h.2⟩; simp only [exec, hs, h.1])
    | (refine key _ _ _ ?_; simp only [hs, h.1])

theorem run_agree {R R' : List Reg} {p : List Instr} (hu : uses R p = some R') {s t : St} (h : Agree R s t) : Agree R' (run p s) (run p t) := by
  induction p generalizing R s t with
  | nil => rw [← Option.some.inj hu]; exact h
  | cons i p ih =>
    rw [uses] at hu
    split at hu
    · rename_i hi
      exact ih hu (exec_agree h hi)
    · exact absurd hu (by simp)

/-- If the body only reads `R`, loops that start in agreement on `R` end in agreement. -/
theorem loop_agree {R R' : List Reg} {body : List Instr} {r : Reg} (hu : uses R body = some R') (hR : R.all (R'.contains ·) = true)
    (hr : R'.contains r = true) {fuel : Nat} {s t s' t' : St} (h : Agree R s t)
    (hs : loop body r fuel s = some s') (ht : loop body r fuel t = some t') : Agree R' s' t' := by
  induction fuel generalizing s t with
  | zero => exact absurd hs (by simp [loop])
  | succ f ih =>
    rw [loop_step] at hs ht
    have a := run_agree hu h
    have e := a.2 r (by simpa using hr)
    rw [← e] at ht
    split at hs
    · rename_i h0
      rw [if_pos h0] at ht
      rw [← Option.some.inj hs, ← Option.some.inj ht]
      exact a
    · rename_i h0
      rw [if_neg h0] at ht
      exact ih (a.mono fun r hr => by simpa using List.all_eq_true.1 hR r hr) hs ht

theorem loop_pure {body : List Instr} {r : Reg} (h : pure body = true) {fuel : Nat} {s t : St} (e : loop body r fuel s = some t) :
    t.mem = s.mem := by
  induction fuel generalizing s with
  | zero => exact absurd e (by simp [loop])
  | succ f ih =>
    rw [loop_step] at e
    split at e
    · rw [← Option.some.inj e, run_pure h]
    · rw [ih e, run_pure h]

theorem asm_agree {R R1 R2 R3 : List Reg} {p body e : List Instr} {r : Reg} (h1 : uses R p = some R1) (h2 : uses R1 body = some R2)
    (h3 : uses R2 e = some R3) (hR : R1.all (R2.contains ·) = true) (hr : R2.contains r = true) {fuel : Nat} {s t s' t' : St} (h : Agree R s t)
    (hs : (loop body r fuel (run p s)).map (run e) = some s') (ht : (loop body r fuel (run p t)).map (run e) = some t') : Agree R3 s' t' := by
  obtain ⟨u, hu, rfl⟩ := Option.map_eq_some_iff.1 hs
  obtain ⟨v, hv, rfl⟩ := Option.map_eq_some_iff.1 ht
  exact run_agree h3 (loop_agree h2 hR hr (run_agree h1 h) hu hv)

end Hashes.Loong
