import Verif.Checked.Loong
import Verif.Proof.Loong
/- Where the memory accesses of the LoongArch loops can be: a syntactic check of the instructions and its soundness. -/
namespace Hashes.Loong

/-- Sizes of what the four base registers point to: state, one block, table of constants, stack scratch. -/
structure Sizes where
  state : Nat
  block : Nat
  table : Nat
  stack : Nat

/-- An access of `n` bytes at offset `imm` from base `r` is allowed. -/
def okAccess (z : Sizes) (store : Bool) (r : Reg) (imm n : Nat) : Bool :=
  match r with
  | .a0 => imm + n ≤ z.state
  | .a1 => !store && imm + n ≤ z.block
  | .a3 => !store && imm + n ≤ z.table
  | .sp => imm + n ≤ z.stack
  | _ => false

def okInstr (z : Sizes) : Instr → Bool
  | .ldw _ rj imm => okAccess z false rj imm 4
  | .ldd _ rj imm => okAccess z false rj imm 8
  | .stw _ rj imm => okAccess z true rj imm 4
  | .std _ rj imm => okAccess z true rj imm 8
  | _ => true

/-- The base registers and the block counter. -/
def bases : List Reg := [.a0, .a1, .a2, .a3, .sp]

def keepsBases (i : Instr) : Bool :=
  match dest i with
  | none => true
  | some d => !bases.contains d

/-- Where an access may be, for given values of the four base registers. -/
def Ok (z : Sizes) (p q k sp : W64) (n : Nat) (a : Access) : Prop :=
  4 ≤ a.size ∧ (a.within p z.state ∨ a.within sp z.stack ∨ a.store = false ∧ (a.within q (z.block * n) ∨ a.within k z.table))

theorem exec_reg {s : St} {i : Instr} {r : Reg} (h : dest i ≠ some r) : (exec s i).reg r = s.reg r := by
  cases i <;> simp only [dest, ne_eq, Option.some.injEq] at h <;> simp only [exec, St.set] <;> rw [if_neg (fun e => h e.symm)]

theorem exec_bases {s : St} {i : Instr} (h : keepsBases i = true) {r : Reg} (hr : r ∈ bases) : (exec s i).reg r = s.reg r := by
  refine exec_reg fun e => ?_
  rw [keepsBases, e] at h
  simp only [Bool.not_eq_true', List.contains_eq_mem, decide_eq_false_iff_not] at h
  exact h hr

theorem run_bases {p : List Instr} (h : p.all keepsBases = true) {r : Reg} (hr : r ∈ bases) (s : St) : (run p s).reg r = s.reg r := by
  induction p generalizing s with
  | nil => rfl
  | cons i p ih =>
    rw [List.all_cons, Bool.and_eq_true] at h
    rw [run_cons, ih h.2, exec_bases h.1 hr]

theorem within_off (p : W64) (imm n m : Nat) (b : Bool) (h : imm + n ≤ m) : (Access.mk b (p + BitVec.ofNat 64 imm) n).within p m := by
  have : (p + BitVec.ofNat 64 imm - p).toNat ≤ imm := by
    rw [BitVec.add_comm, BitVec.add_sub_cancel, BitVec.toNat_ofNat]
    exact Nat.mod_le _ _
  simp only [Access.within]
  omega

/-- The `k`-th block lies in the `n` blocks. -/
theorem within_block (q : W64) (bs k n imm m : Nat) (b : Bool) (h : imm + m ≤ bs) (hk : k < n) :
    (Access.mk b (q + BitVec.ofNat 64 (bs * k) + BitVec.ofNat 64 imm) m).within q (bs * n) := by
  have : (q + BitVec.ofNat 64 (bs * k) + BitVec.ofNat 64 imm - q).toNat ≤ bs * k + imm := by
    rw [BitVec.add_assoc, BitVec.add_comm, BitVec.add_sub_cancel, BitVec.toNat_add, BitVec.toNat_ofNat, BitVec.toNat_ofNat]
    exact Nat.le_trans (Nat.mod_le _ _) (Nat.add_le_add (Nat.mod_le _ _) (Nat.mod_le _ _))
  have h2 : bs * (k + 1) ≤ bs * n := Nat.mul_le_mul_left _ hk
  rw [Nat.mul_succ] at h2
  simp only [Access.within]
  omega

theorem access_ok {z : Sizes} {p q t sp : W64} {n k : Nat} (hk : k < n) {s : St} (h0 : s.reg .a0 = p)
    (h1 : s.reg .a1 = q + BitVec.ofNat 64 (z.block * k)) (h3 : s.reg .a3 = t) (hs : s.reg .sp = sp) {r : Reg} {b : Bool} {imm m : Nat}
    (hm : 4 ≤ m) (h : okAccess z b r imm m = true) : Ok z p q t sp n ⟨b, s.reg r + BitVec.ofNat 64 imm, m⟩ := by
  refine ⟨hm, ?_⟩
  cases r <;> simp only [okAccess, Bool.and_eq_true, Bool.not_eq_true', decide_eq_true_eq, Bool.false_eq_true] at h
  · rw [hs]; exact .inr (.inl (within_off _ _ _ _ _ h))
  · rw [h0]; exact .inl (within_off _ _ _ _ _ h)
  · rw [h1]; exact .inr (.inr ⟨h.1, .inl (within_block _ _ _ _ _ _ _ h.2 hk)⟩)
  · rw [h3]; exact .inr (.inr ⟨h.1, .inr (within_off _ _ _ _ _ h.2)⟩)

theorem instr_ok {z : Sizes} {p q t sp : W64} {n k : Nat} (hk : k < n) {s : St} (h0 : s.reg .a0 = p)
    (h1 : s.reg .a1 = q + BitVec.ofNat 64 (z.block * k)) (h3 : s.reg .a3 = t) (hs : s.reg .sp = sp) {i : Instr} (h : okInstr z i = true)
    (a : Access) (ha : a ∈ accesses s i) : Ok z p q t sp n a := by
  cases i <;> simp only [accesses, List.mem_cons, List.not_mem_nil, or_false] at ha <;> subst ha <;>
    exact access_ok hk h0 h1 h3 hs (by decide) h

theorem trace_append (p q : List Instr) (s : St) : trace (p ++ q) s = trace p s ++ trace q (run p s) := by
  induction p generalizing s with
  | nil => rfl
  | cons i p ih => rw [List.cons_append, trace, ih, trace, List.append_assoc]; rfl

theorem trace_ok {z : Sizes} {p q t sp : W64} {n k : Nat} (hk : k < n) {prog : List Instr} (hi : prog.all (okInstr z) = true)
    (hb : prog.all keepsBases = true) {s : St} (h0 : s.reg .a0 = p) (h1 : s.reg .a1 = q + BitVec.ofNat 64 (z.block * k)) (h3 : s.reg .a3 = t)
    (hs : s.reg .sp = sp) (a : Access) (ha : a ∈ trace prog s) : Ok z p q t sp n a := by
  induction prog generalizing s with
  | nil => simp [trace] at ha
  | cons i prog ih =>
    rw [List.all_cons, Bool.and_eq_true] at hi hb
    rw [trace, List.mem_append] at ha
    rcases ha with ha | ha
    · exact instr_ok hk h0 h1 h3 hs hi.1 a ha
    · exact ih hi.2 hb.2 (by rw [exec_bases hb.1 (by decide), h0]) (by rw [exec_bases hb.1 (by decide), h1])
        (by rw [exec_bases hb.1 (by decide), h3]) (by rw [exec_bases hb.1 (by decide), hs]) ha

/-- The end of every loop body: on to the next block. -/
def next (bs : Nat) : List Instr := [.addid .a1 .a1 bs, .addid .a2 .a2 (-1)]

theorem loop_ok {z : Sizes} {p q t sp : W64} {n : Nat} {b : List Instr} (hi : b.all (okInstr z) = true)
    (hb : b.all keepsBases = true) (fuel k : Nat) (hk : k < n) {s : St} (h0 : s.reg .a0 = p) (h1 : s.reg .a1 = q + BitVec.ofNat 64 (z.block * k))
    (h2 : s.reg .a2 = BitVec.ofNat 64 (n - k)) (h3 : s.reg .a3 = t) (hs : s.reg .sp = sp) (a : Access)
    (ha : a ∈ loopTrace (b ++ next z.block) .a2 fuel s) : Ok z p q t sp n a := by
  induction fuel generalizing k s with
  | zero => simp [loopTrace] at ha
  | succ fuel ih =>
    rw [loopTrace, List.mem_append, trace_append, List.mem_append] at ha
    have r0 := run_bases hb (r := .a0) (by decide) s
    have r1 := run_bases hb (r := .a1) (by decide) s
    have r2 := run_bases hb (r := .a2) (by decide) s
    have r3 := run_bases hb (r := .a3) (by decide) s
    have rs := run_bases hb (r := .sp) (by decide) s
    rcases ha with (ha | ha) | ha
    · exact trace_ok hk hi hb h0 h1 h3 hs a ha
    · simp [next, trace, accesses] at ha
    · rw [run_append] at ha
      generalize run b s = u at ha r0 r1 r2 r3 rs
      have e2 : (run (next z.block) u).reg .a2 = BitVec.ofNat 64 (n - k - 1) := by
        unfold next; loong
        rw [r2, h2, show BitVec.ofInt 64 (-1) = -BitVec.ofNat 64 1 from rfl, ← BitVec.sub_eq_add_neg]
        apply BitVec.eq_of_toNat_eq
        rw [BitVec.toNat_sub]
        simp only [BitVec.toNat_ofNat]
        omega
      rw [e2] at ha
      split at ha
      · simp at ha
      · rename_i hne
        have hk' : k + 1 < n := by
          rcases Nat.lt_or_ge (k + 1) n with h | h
          · exact h
          · rw [show n - k - 1 = 0 by omega] at hne
            exact absurd rfl hne
        refine ih (k + 1) hk' ?_ ?_ (by rw [e2]; rfl) ?_ ?_ ha
        · rw [← h0, ← r0]; unfold next; loong
        · unfold next; loong
          rw [r1, h1, BitVec.add_assoc, Nat.mul_succ, BitVec.ofNat_add]
          rfl
        · rw [← h3, ← r3]; unfold next; loong
        · rw [← hs, ← rs]; unfold next; loong

/-- The accesses of a whole block: `prologue` either moves the stack pointer and loads the state, or is empty. -/
theorem asm_ok {z : Sizes} {n : Nat} (hn : 0 < n) {pre pro b epi : List Instr} {d : W64} (hpre : ∀ s, trace pre s = [] ∧ (∀ r ∈ bases, r ≠ .sp → (run pre s).reg r = s.reg r) ∧
      (run pre s).reg .sp = s.reg .sp - d)
    (hpi : pro.all (okInstr z) = true) (hpb : pro.all keepsBases = true) (hi : b.all (okInstr z) = true) (hb : b.all keepsBases = true)
    (he : ∀ s, trace epi s = []) (fuel : Nat) {s : St} (h2 : s.reg .a2 = BitVec.ofNat 64 n) (a : Access)
    (ha : a ∈ asmTrace (pre ++ pro) (b ++ next z.block) epi fuel s) :
    Ok z (s.reg .a0) (s.reg .a1) (s.reg .a3) (s.reg .sp - d) n a := by
  obtain ⟨t0, rb, rs⟩ := hpre s
  rw [asmTrace, List.mem_append, List.mem_append, trace_append, List.mem_append, run_append, t0] at ha
  generalize run pre s = u at ha rb rs
  have e1 : u.reg .a1 = s.reg .a1 + BitVec.ofNat 64 (z.block * 0) := by
    rw [rb .a1 (by decide) (by decide), Nat.mul_zero, BitVec.add_zero]
  rcases ha with ((ha | ha) | ha) | ha
  · simp at ha
  · exact trace_ok hn hpi hpb (rb .a0 (by decide) (by decide)) e1 (rb .a3 (by decide) (by decide)) rs a ha
  · refine loop_ok hi hb fuel 0 hn ?_ ?_ ?_ ?_ ?_ a ha
    · rw [run_bases hpb (by decide), rb .a0 (by decide) (by decide)]
    · rw [run_bases hpb (by decide), e1]
    · rw [run_bases hpb (by decide), rb .a2 (by decide) (by decide), h2]; rfl
    · rw [run_bases hpb (by decide), rb .a3 (by decide) (by decide)]
    · rw [run_bases hpb (by decide), rs]
  · cases h : loop (b ++ next z.block) .a2 fuel (run pro u) with
    | none => simp [h] at ha
    | some v => simp [h, he] at ha

/-- Lowering the stack pointer. -/
theorem lower_ok (k : Nat) (s : St) : trace [.addid .sp .sp (-(k : Int))] s = [] ∧
    (∀ r ∈ bases, r ≠ .sp → (run [.addid .sp .sp (-(k : Int))] s).reg r = s.reg r) ∧
    (run [.addid .sp .sp (-(k : Int))] s).reg .sp = s.reg .sp - BitVec.ofNat 64 k := by
  refine ⟨rfl, fun r _ hr => ?_, ?_⟩
  · loong; rw [if_neg hr]
  · loong
    rw [BitVec.sub_eq_add_neg, BitVec.ofInt_neg, BitVec.ofInt_natCast]

/-! ### The trace is what the machine does -/

/-- Address `x` is one of the bytes of the access. -/
def Access.covers (a : Access) (x : W64) : Prop := (x - a.addr).toNat < a.size

theorem exec_mem {s : St} {i : Instr} {x : W64} (h : ∀ a ∈ accesses s i, a.store = true → ¬ a.covers x) : (exec s i).mem x = s.mem x := by
  cases i <;> try rfl
  all_goals
    simp only [accesses, List.mem_cons, List.not_mem_nil, or_false, forall_eq, forall_const, Access.covers] at h
    simp only [exec, st, write, length_leBytes]
    exact if_neg h

theorem run_mem {p : List Instr} {s : St} {x : W64} (h : ∀ a ∈ trace p s, a.store = true → ¬ a.covers x) : (run p s).mem x = s.mem x := by
  induction p generalizing s with
  | nil => rfl
  | cons i p ih =>
    rw [trace] at h
    rw [run_cons, ih fun a ha => h a (List.mem_append_right _ ha), exec_mem fun a ha => h a (List.mem_append_left _ ha)]

theorem loop_mem {p : List Instr} {r : Reg} {fuel : Nat} {s s' : St} {x : W64} (h : ∀ a ∈ loopTrace p r fuel s, a.store = true → ¬ a.covers x)
    (e : loop p r fuel s = some s') : s'.mem x = s.mem x := by
  induction fuel generalizing s with
  | zero => simp [loop] at e
  | succ fuel ih =>
    rw [loop] at e
    rw [loopTrace] at h
    have h1 := run_mem fun a ha => h a (List.mem_append_left _ ha)
    have h2 := fun a ha => h a (List.mem_append_right _ ha)
    split at e
    · rw [← Option.some.inj e, h1]
    · rename_i hne
      rw [if_neg hne] at h2
      rw [ih h2 e, h1]

/-- Bytes that no store of the trace covers are unchanged. -/
theorem asm_mem {pro b epi : List Instr} {fuel : Nat} {s s' : St} {x : W64} (h : ∀ a ∈ asmTrace pro b epi fuel s, a.store = true → ¬ a.covers x)
    (e : (loop b .a2 fuel (run pro s)).map (run epi) = some s') : s'.mem x = s.mem x := by
  obtain ⟨u, hu, rfl⟩ := Option.map_eq_some_iff.1 e
  rw [asmTrace, hu] at h
  have h1 := run_mem fun a ha => h a (List.mem_append_left _ (List.mem_append_left _ ha))
  have h2 := loop_mem (fun a ha => h a (List.mem_append_left _ (List.mem_append_right _ ha))) hu
  have h3 := run_mem fun a ha => h a (List.mem_append_right _ ha)
  rw [h3, h2, h1]

/-- Same registers, same bytes at the addresses in `P`. -/
def Same (P : W64 → Prop) (s t : St) : Prop := s.reg = t.reg ∧ ∀ x, P x → s.mem x = t.mem x

theorem bytesAt_same {P : W64 → Prop} {m m' : Mem} (h : ∀ x, P x → m x = m' x) {p : W64} {n : Nat} (hn : n ≤ 8)
    (hp : ∀ x, (x - p).toNat < n → P x) : bytesAt m p n = bytesAt m' p n := by
  refine List.map_congr_left fun k hk => h _ (hp _ ?_)
  rw [List.mem_range] at hk
  rw [BitVec.add_comm, BitVec.add_sub_cancel, BitVec.toNat_ofNat]
  omega

theorem accesses_same {s t : St} (h : s.reg = t.reg) (i : Instr) : accesses s i = accesses t i := by
  cases i <;> simp only [accesses, h]

theorem exec_same {P : W64 → Prop} {s t : St} (h : Same P s t) {i : Instr} (hi : ∀ a ∈ accesses s i, a.store = false → ∀ x, a.covers x → P x) :
    Same P (exec s i) (exec t i) := by
  obtain ⟨hr, hm⟩ := h
  have key : ∀ (d : Reg) (v w : W64), v = w → Same P (s.set d v) (t.set d w) := fun d v w e => ⟨by simp only [St.set, hr, e], hm⟩
  have wr : ∀ (a : W64) (bs : Bytes), Same P ⟨s.reg, write s.mem a bs⟩ ⟨s.reg, write t.mem a bs⟩ := fun a bs =>
    ⟨rfl, fun x hx => by simp only [write, hm x hx]⟩
  cases i <;> try (refine key _ _ _ ?_; simp only [hr]; done)
  · simp only [accesses, List.mem_cons, List.not_mem_nil, or_false, forall_eq, forall_const, Access.covers] at hi
    refine key _ _ _ ?_
    rw [ld, ld, bytesAt_same hm (by decide) hi, hr]
  · simp only [accesses, List.mem_cons, List.not_mem_nil, or_false, forall_eq, forall_const, Access.covers] at hi
    refine key _ _ _ ?_
    rw [ld, ld, bytesAt_same hm (by decide) hi, hr]
  · simp only [exec, st, ← hr]; exact wr _ _
  · simp only [exec, st, ← hr]; exact wr _ _

theorem run_same {P : W64 → Prop} {p : List Instr} {s t : St} (h : Same P s t) (hi : ∀ a ∈ trace p s, a.store = false → ∀ x, a.covers x → P x) :
    Same P (run p s) (run p t) ∧ trace p s = trace p t := by
  induction p generalizing s t with
  | nil => exact ⟨h, rfl⟩
  | cons i p ih =>
    rw [trace] at hi
    have h1 := exec_same h fun a ha => hi a (List.mem_append_left _ ha)
    have h2 := ih h1 fun a ha => hi a (List.mem_append_right _ ha)
    rw [run_cons, run_cons, trace, trace, accesses_same h.1]
    exact ⟨h2.1, by rw [h2.2]⟩

theorem loop_same {P : W64 → Prop} {p : List Instr} {r : Reg} {fuel : Nat} {s t : St} (h : Same P s t)
    (hi : ∀ a ∈ loopTrace p r fuel s, a.store = false → ∀ x, a.covers x → P x) {s' : St} (e : loop p r fuel s = some s') :
    ∃ t', loop p r fuel t = some t' ∧ Same P s' t' := by
  induction fuel generalizing s t with
  | zero => simp [loop] at e
  | succ fuel ih =>
    rw [loop] at e ⊢
    rw [loopTrace] at hi
    have h1 := (run_same h fun a ha => hi a (List.mem_append_left _ ha)).1
    have h2 := fun a ha => hi a (List.mem_append_right _ ha)
    rw [← h1.1]
    split at e
    · rename_i h0
      rw [if_pos h0]
      exact ⟨_, rfl, by rw [← Option.some.inj e]; exact h1⟩
    · rename_i h0
      rw [if_neg h0] at h2 ⊢
      exact ih h1 h2 e

/-- The registers at the end, and the bytes at the addresses in `P`, are determined by the initial registers and the initial bytes
in `P`, if `P` includes every byte that is loaded. -/
theorem asm_same {P : W64 → Prop} {pro b epi : List Instr} {fuel : Nat} {s t s' : St} (h : Same P s t)
    (hi : ∀ a ∈ asmTrace pro b epi fuel s, a.store = false → ∀ x, a.covers x → P x)
    (e : (loop b .a2 fuel (run pro s)).map (run epi) = some s') :
    ∃ t', (loop b .a2 fuel (run pro t)).map (run epi) = some t' ∧ Same P s' t' := by
  obtain ⟨u, hu, rfl⟩ := Option.map_eq_some_iff.1 e
  rw [asmTrace, hu] at hi
  have h1 := (run_same h fun a ha => hi a (List.mem_append_left _ (List.mem_append_left _ ha))).1
  obtain ⟨v, hv, h2⟩ := loop_same h1 (fun a ha => hi a (List.mem_append_left _ (List.mem_append_right _ ha))) hu
  exact ⟨_, by rw [hv]; rfl, (run_same h2 fun a ha => hi a (List.mem_append_right _ ha)).1⟩

end Hashes.Loong
