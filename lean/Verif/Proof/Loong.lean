import Verif.Isa.Loong
import Verif.Base.Simd
/- Memory and register lemmas for the LoongArch machine. -/
namespace Hashes.Loong

/-! ### Low halves -/

@[simp] theorem lo_sx (x : W32) : lo (sx x) = x := by
  apply BitVec.eq_of_getLsbD_eq
  intro k hk
  rw [lo, sx, BitVec.getLsbD_setWidth, BitVec.getLsbD_signExtend]
  simp [hk, show k < 64 by omega]
@[simp] theorem lo_xor (x y : W64) : lo (x ^^^ y) = lo x ^^^ lo y := by simp [lo]
@[simp] theorem lo_and (x y : W64) : lo (x &&& y) = lo x &&& lo y := by simp [lo]
@[simp] theorem lo_or (x y : W64) : lo (x ||| y) = lo x ||| lo y := by simp [lo]
@[simp] theorem lo_not (x : W64) : lo (~~~ x) = ~~~ lo x := by
  apply BitVec.eq_of_getLsbD_eq
  intro k hk
  simp [lo, hk, show k < 64 by omega]

/-! ### Registers -/

theorem run_nil (s : St) : run [] s = s := (rfl)
theorem run_cons (i : Instr) (p : List Instr) (s : St) : run (i :: p) s = run p (exec s i) := (rfl)
theorem run_append (p q : List Instr) (s : St) : run (p ++ q) s = run q (run p s) := by simp [run, List.foldl_append]

/- The next lemmas are `(rfl)` rather than `rfl` so that `simp` records each use: the kernel then checks a run step by
step instead of evaluating it. -/
theorem reg_ldw (s : St) (rd rj : Reg) (imm : Nat) (x : Reg) : (exec s (.ldw rd rj imm)).reg x = if x = rd then sx (ld 32 s.mem (s.reg rj + BitVec.ofNat 64 imm)) else s.reg x := (rfl)
theorem mem_ldw (s : St) (rd rj : Reg) (imm : Nat) : (exec s (.ldw rd rj imm)).mem = s.mem := (rfl)
theorem reg_ldd (s : St) (rd rj : Reg) (imm : Nat) (x : Reg) : (exec s (.ldd rd rj imm)).reg x = if x = rd then ld 64 s.mem (s.reg rj + BitVec.ofNat 64 imm) else s.reg x := (rfl)
theorem mem_ldd (s : St) (rd rj : Reg) (imm : Nat) : (exec s (.ldd rd rj imm)).mem = s.mem := (rfl)
theorem reg_addw (s : St) (rd rj rk : Reg) (x : Reg) : (exec s (.addw rd rj rk)).reg x = if x = rd then sx (lo (s.reg rj) + lo (s.reg rk)) else s.reg x := (rfl)
theorem mem_addw (s : St) (rd rj rk : Reg) : (exec s (.addw rd rj rk)).mem = s.mem := (rfl)
theorem reg_addd (s : St) (rd rj rk : Reg) (x : Reg) : (exec s (.addd rd rj rk)).reg x = if x = rd then s.reg rj + s.reg rk else s.reg x := (rfl)
theorem mem_addd (s : St) (rd rj rk : Reg) : (exec s (.addd rd rj rk)).mem = s.mem := (rfl)
theorem reg_addid (s : St) (rd rj : Reg) (imm : Int) (x : Reg) : (exec s (.addid rd rj imm)).reg x = if x = rd then s.reg rj + BitVec.ofInt 64 imm else s.reg x := (rfl)
theorem mem_addid (s : St) (rd rj : Reg) (imm : Int) : (exec s (.addid rd rj imm)).mem = s.mem := (rfl)
theorem reg_xor (s : St) (rd rj rk : Reg) (x : Reg) : (exec s (.xor rd rj rk)).reg x = if x = rd then s.reg rj ^^^ s.reg rk else s.reg x := (rfl)
theorem mem_xor (s : St) (rd rj rk : Reg) : (exec s (.xor rd rj rk)).mem = s.mem := (rfl)
theorem reg_and (s : St) (rd rj rk : Reg) (x : Reg) : (exec s (.and rd rj rk)).reg x = if x = rd then s.reg rj &&& s.reg rk else s.reg x := (rfl)
theorem mem_and (s : St) (rd rj rk : Reg) : (exec s (.and rd rj rk)).mem = s.mem := (rfl)
theorem reg_or (s : St) (rd rj rk : Reg) (x : Reg) : (exec s (.or rd rj rk)).reg x = if x = rd then s.reg rj ||| s.reg rk else s.reg x := (rfl)
theorem mem_or (s : St) (rd rj rk : Reg) : (exec s (.or rd rj rk)).mem = s.mem := (rfl)
theorem reg_andn (s : St) (rd rj rk : Reg) (x : Reg) : (exec s (.andn rd rj rk)).reg x = if x = rd then s.reg rj &&& ~~~ s.reg rk else s.reg x := (rfl)
theorem mem_andn (s : St) (rd rj rk : Reg) : (exec s (.andn rd rj rk)).mem = s.mem := (rfl)
theorem reg_orn (s : St) (rd rj rk : Reg) (x : Reg) : (exec s (.orn rd rj rk)).reg x = if x = rd then s.reg rj ||| ~~~ s.reg rk else s.reg x := (rfl)
theorem mem_orn (s : St) (rd rj rk : Reg) : (exec s (.orn rd rj rk)).mem = s.mem := (rfl)
theorem reg_rotriw (s : St) (rd rj : Reg) (n : Nat) (x : Reg) : (exec s (.rotriw rd rj n)).reg x = if x = rd then sx ((lo (s.reg rj)).rotateRight n) else s.reg x := (rfl)
theorem mem_rotriw (s : St) (rd rj : Reg) (n : Nat) : (exec s (.rotriw rd rj n)).mem = s.mem := (rfl)
theorem reg_rotrid (s : St) (rd rj : Reg) (n : Nat) (x : Reg) : (exec s (.rotrid rd rj n)).reg x = if x = rd then (s.reg rj).rotateRight n else s.reg x := (rfl)
theorem mem_rotrid (s : St) (rd rj : Reg) (n : Nat) : (exec s (.rotrid rd rj n)).mem = s.mem := (rfl)
theorem reg_srliw (s : St) (rd rj : Reg) (n : Nat) (x : Reg) : (exec s (.srliw rd rj n)).reg x = if x = rd then sx (lo (s.reg rj) >>> n) else s.reg x := (rfl)
theorem mem_srliw (s : St) (rd rj : Reg) (n : Nat) : (exec s (.srliw rd rj n)).mem = s.mem := (rfl)
theorem reg_srlid (s : St) (rd rj : Reg) (n : Nat) (x : Reg) : (exec s (.srlid rd rj n)).reg x = if x = rd then s.reg rj >>> n else s.reg x := (rfl)
theorem mem_srlid (s : St) (rd rj : Reg) (n : Nat) : (exec s (.srlid rd rj n)).mem = s.mem := (rfl)
theorem reg_revb2h (s : St) (rd rj : Reg) (x : Reg) : (exec s (.revb2h rd rj)).reg x = if x = rd then sx (revb2h32 (lo (s.reg rj))) else s.reg x := (rfl)
theorem mem_revb2h (s : St) (rd rj : Reg) : (exec s (.revb2h rd rj)).mem = s.mem := (rfl)
theorem reg_revbd (s : St) (rd rj : Reg) (x : Reg) : (exec s (.revbd rd rj)).reg x = if x = rd then revb64 (s.reg rj) else s.reg x := (rfl)
theorem mem_revbd (s : St) (rd rj : Reg) : (exec s (.revbd rd rj)).mem = s.mem := (rfl)
theorem reg_move (s : St) (rd rj : Reg) (x : Reg) : (exec s (.move rd rj)).reg x = if x = rd then s.reg rj else s.reg x := (rfl)
theorem mem_move (s : St) (rd rj : Reg) : (exec s (.move rd rj)).mem = s.mem := (rfl)
theorem reg_stw (s : St) (rd rj : Reg) (imm : Nat) (x : Reg) : (exec s (.stw rd rj imm)).reg x = s.reg x := (rfl)
theorem mem_stw (s : St) (rd rj : Reg) (imm : Nat) :
    (exec s (.stw rd rj imm)).mem = st s.mem (s.reg rj + BitVec.ofNat 64 imm) (lo (s.reg rd)) := (rfl)
theorem reg_std (s : St) (rd rj : Reg) (imm : Nat) (x : Reg) : (exec s (.std rd rj imm)).reg x = s.reg x := (rfl)
theorem mem_std (s : St) (rd rj : Reg) (imm : Nat) :
    (exec s (.std rd rj imm)).mem = st s.mem (s.reg rj + BitVec.ofNat 64 imm) (s.reg rd) := (rfl)

/-- Symbolic execution of a straight-line sequence. -/
macro "loong" : tactic => `(tactic| simp only [run_cons, run_nil, reg_ldw, mem_ldw, reg_ldd, mem_ldd, reg_addw, mem_addw, reg_addd, mem_addd, reg_addid, mem_addid, reg_xor, mem_xor, reg_and, mem_and, reg_or, mem_or, reg_andn, mem_andn, reg_orn, mem_orn, reg_rotriw, mem_rotriw, reg_rotrid, mem_rotrid, reg_srliw, mem_srliw, reg_srlid, mem_srlid, reg_revb2h, mem_revb2h, reg_revbd, mem_revbd, reg_move, mem_move, reg_stw, mem_stw, reg_std, mem_std,
  reduceCtorEq, if_true, if_false, lo_sx, lo_xor, lo_and, lo_or, lo_not])

/-- The register an instruction writes. -/
def dest : Instr → Option Reg
  | .ldw rd _ _ | .ldd rd _ _ | .addw rd _ _ | .addd rd _ _ | .addid rd _ _ | .xor rd _ _ | .and rd _ _ | .or rd _ _
  | .andn rd _ _ | .orn rd _ _ | .rotriw rd _ _ | .rotrid rd _ _ | .srliw rd _ _ | .srlid rd _ _ | .revb2h rd _
  | .revbd rd _ | .move rd _ => some rd
  | .stw _ _ _ | .std _ _ _ => none

/-- Whether no instruction of a sequence writes `x`. -/
def keeps (x : Reg) (p : List Instr) : Bool := p.all fun i => decide (dest i ≠ some x)

theorem exec_keeps (s : St) (i : Instr) (x : Reg) (h : dest i ≠ some x) : (exec s i).reg x = s.reg x := by
  cases i <;> simp only [dest, ne_eq, Option.some.injEq, reduceCtorEq, not_false_eq_true] at h <;>
    first
    | rfl
    | (simp only [exec, St.set]; exact if_neg (fun e => h e.symm))

theorem run_keeps {x : Reg} {p : List Instr} (h : keeps x p = true) (s : St) : (run p s).reg x = s.reg x := by
  induction p generalizing s with
  | nil => rfl
  | cons i p ih =>
    rw [keeps, List.all_cons, Bool.and_eq_true] at h
    rw [run_cons, ih h.2, exec_keeps _ _ _ (of_decide_eq_true h.1)]

/-- Whether a sequence has no store. -/
def pure (p : List Instr) : Bool := p.all fun i => match i with
  | .stw _ _ _ | .std _ _ _ => false
  | _ => true

theorem run_pure {p : List Instr} (h : pure p = true) (s : St) : (run p s).mem = s.mem := by
  induction p generalizing s with
  | nil => rfl
  | cons i p ih =>
    rw [pure, List.all_cons, Bool.and_eq_true] at h
    rw [run_cons, ih h.2]
    cases i <;> first | rfl | cases h.1

theorem loop_step (body : List Instr) (r : Reg) (fuel : Nat) (s : St) :
    loop body r (fuel + 1) s = if (run body s).reg r = 0 then some (run body s) else loop body r fuel (run body s) := rfl

/-- A counted loop. -/
theorem loop_inv {body : List Instr} {r : Reg} {n : Nat} (I : Nat → St → Prop) (hn : 0 < n) (hn' : n < 2 ^ 64)
    (hr : ∀ k s, k ≤ n → I k s → s.reg r = BitVec.ofNat 64 (n - k)) (hs : ∀ k s, k < n → I k s → I (k + 1) (run body s)) {s : St} (h : I 0 s)
    {fuel : Nat} (hf : n ≤ fuel) : ∃ s', loop body r fuel s = some s' ∧ I n s' := by
  have key : ∀ d k s fuel, k + (d + 1) = n → d + 1 ≤ fuel → I k s → ∃ s', loop body r fuel s = some s' ∧ I n s' := by
    intro d
    induction d with
    | zero =>
      intro k s fuel hk hf hI
      obtain ⟨f, rfl⟩ : ∃ f, fuel = f + 1 := ⟨fuel - 1, by omega⟩
      have h1 := hs k s (by omega) hI
      have h2 := hr _ _ (by omega) h1
      replace h2 : (run body s).reg r = 0 := by rw [h2, show n - (k + 1) = 0 by omega]; rfl
      rw [loop_step, if_pos h2]
      exact ⟨_, rfl, by rw [← hk]; exact h1⟩
    | succ d ih =>
      intro k s fuel hk hf hI
      obtain ⟨f, rfl⟩ : ∃ f, fuel = f + 1 := ⟨fuel - 1, by omega⟩
      have h1 := hs k s (by omega) hI
      have h2 := hr _ _ (by omega) h1
      have h3 : (run body s).reg r ≠ 0 := by
        rw [h2]
        intro e
        have := congrArg BitVec.toNat e
        rw [BitVec.toNat_ofNat, Nat.mod_eq_of_lt (by omega), show (0 : W64).toNat = 0 from rfl] at this
        omega
      rw [loop_step, if_neg h3]
      exact ih (k + 1) _ f (by omega) (by omega) h1
  exact key (n - 1) 0 s fuel (by omega) (by omega) h

/-- More fuel does not change the outcome. -/
theorem loop_mono {body : List Instr} {r : Reg} {fuel fuel' : Nat} (h : fuel ≤ fuel') {s t : St} (e : loop body r fuel s = some t) :
    loop body r fuel' s = some t := by
  induction fuel generalizing s fuel' with
  | zero => exact absurd e (by simp [loop])
  | succ f ih =>
    obtain ⟨f', rfl⟩ : ∃ f', fuel' = f' + 1 := ⟨fuel' - 1, by omega⟩
    rw [loop_step] at e ⊢
    split
    · rename_i h0; rw [if_pos h0] at e; exact e
    · rename_i h0; rw [if_neg h0] at e; exact ih (by omega) e

theorem loop_keeps {x : Reg} {body : List Instr} {r : Reg} (h : keeps x body = true) {fuel : Nat} {s t : St} (e : loop body r fuel s = some t) :
    t.reg x = s.reg x := by
  induction fuel generalizing s with
  | zero => exact absurd e (by simp [loop])
  | succ f ih =>
    rw [loop_step] at e
    split at e
    · rw [← Option.some.inj e, run_keeps h]
    · rw [ih e, run_keeps h]

/-- A sequence of rounds. -/
theorem run_flatten (f : Nat → List Instr) (I : Nat → St → Prop) (n : Nat) (hs : ∀ i s, i < n → I i s → I (i + 1) (run (f i) s)) {s : St}
    (h : I 0 s) : I n (run ((List.range n).map f).flatten s) := by
  induction n with
  | zero => exact h
  | succ n ih =>
    rw [List.range_succ, List.map_append, List.flatten_append, run_append, List.map_singleton, List.flatten_singleton]
    exact hs n _ (by omega) (ih fun i s hi => hs i s (by omega))

theorem and15 (i : Nat) : i &&& 0xF = i % 16 := Nat.and_two_pow_sub_one_eq_mod i 4

/-! ### Memory -/

/-- Two memory areas (start, length) have no address in common. -/
def Disj (p : W64) (n : Nat) (q : W64) (m : Nat) : Prop := ∀ x : W64, (x - p).toNat < n → m ≤ (x - q).toNat

theorem Disj.symm {p : W64} {n : Nat} {q : W64} {m : Nat} (h : Disj p n q m) : Disj q m p n := by
  intro x hx
  apply Nat.le_of_not_lt
  intro h'
  have := h x h'
  omega

theorem add_sub_off (p : W64) (x y : Nat) (hx : x < 2 ^ 64) (hy : y ≤ x) :
    (p + BitVec.ofNat 64 x - (p + BitVec.ofNat 64 y)).toNat = x - y := by
  rw [BitVec.toNat_sub, BitVec.toNat_add, BitVec.toNat_add, BitVec.toNat_ofNat, BitVec.toNat_ofNat]
  have := p.isLt
  omega

theorem add_sub_off' (p : W64) (x y : Nat) (hy : y < 2 ^ 64) (hx : x < y) :
    (p + BitVec.ofNat 64 x - (p + BitVec.ofNat 64 y)).toNat = 2 ^ 64 - (y - x) := by
  rw [BitVec.toNat_sub, BitVec.toNat_add, BitVec.toNat_add, BitVec.toNat_ofNat, BitVec.toNat_ofNat]
  have := p.isLt
  omega

theorem add_sub_base (p : W64) (x : Nat) (hx : x < 2 ^ 64) : (p + BitVec.ofNat 64 x - p).toNat = x := by
  have := add_sub_off p x 0 hx (Nat.zero_le _)
  simpa using this

theorem add_add (p : W64) (x y : Nat) : p + BitVec.ofNat 64 x + BitVec.ofNat 64 y = p + BitVec.ofNat 64 (x + y) := by
  rw [BitVec.add_assoc, BitVec.ofNat_add]

theorem bytesAt_congr {m m' : Mem} {p : W64} {n : Nat} (h : ∀ k < n, m (p + BitVec.ofNat 64 k) = m' (p + BitVec.ofNat 64 k)) :
    bytesAt m p n = bytesAt m' p n := by
  apply List.map_congr_left
  intro k hk
  exact h k (by simpa using hk)

@[simp] theorem length_bytesAt (m : Mem) (p : W64) (n : Nat) : (bytesAt m p n).length = n := by simp [bytesAt]

theorem bytesAt_write_self (m : Mem) (p : W64) (bs : Bytes) (h : bs.length < 2 ^ 64) : bytesAt (write m p bs) p bs.length = bs := by
  apply List.ext_getElem
  · simp
  · intro k h1 h2
    simp only [bytesAt, List.getElem_map, List.getElem_range, write, add_sub_base p k (by omega), h2, if_true]
    simp [List.getD_eq_getElem?_getD, h2]

theorem bytesAt_write_other {m : Mem} {p q : W64} {bs : Bytes} {n : Nat}
    (h : ∀ k < n, bs.length ≤ (q + BitVec.ofNat 64 k - p).toNat) : bytesAt (write m p bs) q n = bytesAt m q n := by
  apply bytesAt_congr
  intro k hk
  simp only [write, Nat.not_lt.mpr (h k hk), if_false]

theorem ld_congr {w : Nat} {m m' : Mem} {p : W64} (h : ∀ k < w / 8, m (p + BitVec.ofNat 64 k) = m' (p + BitVec.ofNat 64 k)) :
    ld w m p = ld w m' p := by
  rw [ld, ld, bytesAt_congr h]

theorem ld_st_self {w : Nat} (m : Mem) (p : W64) (v : BitVec w) (hw : 8 * (w / 8) = w) (h : w < 2 ^ 64) : ld w (st m p v) p = v := by
  have hl : (leBytes (w / 8) v.toNat).length = w / 8 := by simp
  have := bytesAt_write_self m p (leBytes (w / 8) v.toNat) (by rw [hl]; omega)
  rw [hl] at this
  rw [ld, st, this, ofLE_leBytes]
  apply BitVec.eq_of_toNat_eq
  rw [BitVec.toNat_ofNat, show 256 = 2 ^ 8 from rfl, ← Nat.pow_mul, hw, Nat.mod_mod, Nat.mod_eq_of_lt v.isLt]

/-- A store at another offset of the same area. -/
theorem ld_st_ne {w : Nat} (m : Mem) (p : W64) (x y : Nat) (v : BitVec w) (hx : x < 2 ^ 32) (hy : y < 2 ^ 32) (hw : w < 2 ^ 32)
    (h : x + w / 8 ≤ y ∨ y + w / 8 ≤ x) :
    ld w (st m (p + BitVec.ofNat 64 y) v) (p + BitVec.ofNat 64 x) = ld w m (p + BitVec.ofNat 64 x) := by
  rw [ld, ld, st, bytesAt_write_other]
  intro k hk
  rw [length_leBytes, add_add]
  rcases h with h | h
  · rw [add_sub_off' _ _ _ (by omega) (by omega)]; omega
  · rw [add_sub_off _ _ _ (by omega) (by omega)]; omega

/-- A store inside an area leaves the rest of memory unchanged. -/
theorem st_frame {w : Nat} (m : Mem) (p : W64) (n y : Nat) (v : BitVec w) (hw : w < 2 ^ 32) (hy : y + w / 8 ≤ n) (hn : n < 2 ^ 32) {x : W64}
    (hx : n ≤ (x - p).toNat) : st m (p + BitVec.ofNat 64 y) v x = m x := by
  have e : (x - (p + BitVec.ofNat 64 y)).toNat = (x - p).toNat - y := by
    have : x - (p + BitVec.ofNat 64 y) = (x - p) - BitVec.ofNat 64 y := by
      rw [BitVec.sub_sub]
    rw [this, BitVec.toNat_sub, BitVec.toNat_ofNat]
    have := (x - p).isLt
    omega
  rw [st, write, length_leBytes, if_neg (by rw [e]; omega)]

/-- Loads from an area that is not written. -/
theorem ld_frame {w : Nat} {m m' : Mem} {p q : W64} {n l y : Nat} (hf : ∀ x, l ≤ (x - q).toNat → m x = m' x) (hd : Disj p n q l)
    (hy : y + w / 8 ≤ n) (hn : n < 2 ^ 64) : ld w m (p + BitVec.ofNat 64 y) = ld w m' (p + BitVec.ofNat 64 y) := by
  apply ld_congr
  intro k hk
  apply hf
  apply hd
  rw [add_add, add_sub_base _ _ (by omega)]
  omega

theorem bytesAt_frame {m m' : Mem} {p q : W64} {n l y c : Nat} (hf : ∀ x, l ≤ (x - q).toNat → m x = m' x) (hd : Disj p n q l)
    (hy : y + c ≤ n) (hn : n < 2 ^ 64) : bytesAt m (p + BitVec.ofNat 64 y) c = bytesAt m' (p + BitVec.ofNat 64 y) c := by
  apply bytesAt_congr
  intro k hk
  apply hf
  apply hd
  rw [add_add, add_sub_base _ _ (by omega)]
  omega

theorem getLsbD_ld {w : Nat} (m : Mem) (p : W64) (k : Nat) (hk : k < w) (hw : 8 * (w / 8) = w) :
    (ld w m p).getLsbD k = (m (p + BitVec.ofNat 64 (k / 8))).getLsbD (k % 8) := by
  have : k / 8 < w / 8 := by omega
  rw [ld, BitVec.getLsbD_ofNat, Simd.testBit_ofLE]
  simp [hk, bytesAt, List.getD_eq_getElem?_getD, this]

theorem getD_bytesAt (m : Mem) (p : W64) {n i : Nat} (h : i < n) : (bytesAt m p n).getD i 0 = m (p + BitVec.ofNat 64 i) := by
  simp [bytesAt, List.getD_eq_getElem?_getD, h]

/-- Words of a little-endian array in memory. -/
theorem ld_eq_wordLE {w : Nat} (m : Mem) (p : W64) (n i : Nat) (hw : 8 * (w / 8) = w) (h : w / 8 * (i + 1) ≤ n) :
    ld w m (p + BitVec.ofNat 64 (w / 8 * i)) = wordLE w (bytesAt m p n) i := by
  apply BitVec.eq_of_getLsbD_eq
  intro k hk
  have : k / 8 < w / 8 := by omega
  rw [getLsbD_ld _ _ _ hk hw, Simd.getLsbD_wordLE _ _ _ ⟨w / 8, hw.symm⟩, add_add, getD_bytesAt]
  · simp [hk]
  · rw [Nat.mul_succ] at h; omega

theorem getLsbD_revb2h32 (x : W32) {k : Nat} (hk : k < 32) :
    (revb2h32 x).getLsbD k = x.getLsbD (if k / 8 % 2 = 0 then k + 8 else k - 8) := by
  unfold revb2h32
  show BitVec.getLsbD (w := 8 + 8 + 8 + 8) _ k = _
  simp only [BitVec.getLsbD_append, BitVec.getLsbD_extractLsb']
  by_cases h0 : k < 8
  · simp [h0, show k / 8 = 0 by omega, Nat.add_comm]
  by_cases h1 : k - 8 < 8
  · simp [h0, h1, show k / 8 = 1 by omega]
  by_cases h2 : k - 8 - 8 < 8
  · simp [h0, h1, h2, show k / 8 = 2 by omega, show 24 + (k - 8 - 8) = k + 8 by omega]
  · simp [h0, h1, h2, show k / 8 = 3 by omega, show k - 8 - 8 - 8 < 8 by omega, show 16 + (k - 8 - 8 - 8) = k - 8 by omega]

theorem getLsbD_revb64 (x : W64) {k : Nat} (hk : k < 64) :
    (revb64 x).getLsbD k = x.getLsbD (8 * (7 - k / 8) + k % 8) := by
  have key : ∀ j < 8, ∀ r < 8, (revb64 x).getLsbD (8 * j + r) = x.getLsbD (8 * (7 - j) + r) := by
    intro j hj r hr
    unfold revb64
    show BitVec.getLsbD (w := 8 + 8 + 8 + 8 + 8 + 8 + 8 + 8) _ _ = _
    simp only [BitVec.getLsbD_append, BitVec.getLsbD_extractLsb']
    rcases j with _ | _ | _ | _ | _ | _ | _ | _ | j
    · simp [hr]
    · simp [hr, show ¬ 8 + r < 8 by omega]
    · simp [hr, show ¬ 16 + r < 8 by omega, show 16 + r - 8 = 8 + r by omega, show ¬ 8 + r < 8 by omega]
    · simp [hr, show ¬ 24 + r < 8 by omega, show 24 + r - 8 = 16 + r by omega, show ¬ 16 + r < 8 by omega, show 16 + r - 8 = 8 + r by omega, show ¬ 8 + r < 8 by omega]
    · simp [hr, show ¬ 32 + r < 8 by omega, show 32 + r - 8 = 24 + r by omega, show ¬ 24 + r < 8 by omega, show 24 + r - 8 = 16 + r by omega, show ¬ 16 + r < 8 by omega, show 16 + r - 8 = 8 + r by omega, show ¬ 8 + r < 8 by omega]
    · simp [hr, show ¬ 40 + r < 8 by omega, show 40 + r - 8 = 32 + r by omega, show ¬ 32 + r < 8 by omega, show 32 + r - 8 = 24 + r by omega, show ¬ 24 + r < 8 by omega, show 24 + r - 8 = 16 + r by omega, show ¬ 16 + r < 8 by omega, show 16 + r - 8 = 8 + r by omega, show ¬ 8 + r < 8 by omega]
    · simp [hr, show ¬ 48 + r < 8 by omega, show 48 + r - 8 = 40 + r by omega, show ¬ 40 + r < 8 by omega, show 40 + r - 8 = 32 + r by omega, show ¬ 32 + r < 8 by omega, show 32 + r - 8 = 24 + r by omega, show ¬ 24 + r < 8 by omega, show 24 + r - 8 = 16 + r by omega, show ¬ 16 + r < 8 by omega, show 16 + r - 8 = 8 + r by omega, show ¬ 8 + r < 8 by omega]
    · simp [hr, show ¬ 56 + r < 8 by omega, show 56 + r - 8 = 48 + r by omega, show ¬ 48 + r < 8 by omega, show 48 + r - 8 = 40 + r by omega, show ¬ 40 + r < 8 by omega, show 40 + r - 8 = 32 + r by omega, show ¬ 32 + r < 8 by omega, show 32 + r - 8 = 24 + r by omega, show ¬ 24 + r < 8 by omega, show 24 + r - 8 = 16 + r by omega, show ¬ 16 + r < 8 by omega, show 16 + r - 8 = 8 + r by omega, show ¬ 8 + r < 8 by omega]
    · omega
  have := key (k / 8) (by omega) (k % 8) (by omega)
  rwa [Nat.div_add_mod] at this

theorem bit_congr (m : Mem) (p : W64) {x y a b : Nat} (h : x = y) (h' : a = b) :
    (m (p + BitVec.ofNat 64 x)).getLsbD a = (m (p + BitVec.ofNat 64 y)).getLsbD b := by rw [h, h']

/-- The byte swap of a loaded 32-bit word. -/
theorem swap32 (m : Mem) (p : W64) (n i : Nat) (h : 4 * (i + 1) ≤ n) :
    (revb2h32 (ld 32 m (p + BitVec.ofNat 64 (4 * i)))).rotateRight 16 = wordBE 32 (bytesAt m p n) i := by
  apply BitVec.eq_of_getLsbD_eq
  intro k hk
  rw [Simd.getLsbD_wordBE _ _ _ (by decide) (by simp; omega), getD_bytesAt _ _ (by omega), BitVec.getLsbD_rotateRight]
  have hb : ∀ j < 32, (ld 32 m (p + BitVec.ofNat 64 (4 * i))).getLsbD j = (m (p + BitVec.ofNat 64 (4 * i + j / 8))).getLsbD (j % 8) := by
    intro j hj; rw [getLsbD_ld _ _ _ hj (by decide), add_add]
  generalize ld 32 m (p + BitVec.ofNat 64 (4 * i)) = x at hb
  simp only [Nat.reduceMod, Nat.reduceSub, hk, decide_true, Bool.true_and]
  by_cases h16 : k < 16
  · simp only [h16, decide_true, cond_true]
    rw [getLsbD_revb2h32 _ (by omega)]
    by_cases h8 : k < 8
    · rw [if_pos (by omega), hb _ (by omega)]
      exact bit_congr m p (by omega) (by omega)
    · rw [if_neg (by omega), hb _ (by omega)]
      exact bit_congr m p (by omega) (by omega)
  · simp only [h16, decide_false, cond_false]
    rw [getLsbD_revb2h32 _ (by omega)]
    by_cases h8 : k < 24
    · rw [if_pos (by omega), hb _ (by omega)]
      exact bit_congr m p (by omega) (by omega)
    · rw [if_neg (by omega), hb _ (by omega)]
      exact bit_congr m p (by omega) (by omega)

/-- The byte swap of a loaded 64-bit word. -/
theorem swap64 (m : Mem) (p : W64) (n i : Nat) (h : 8 * (i + 1) ≤ n) :
    revb64 (ld 64 m (p + BitVec.ofNat 64 (8 * i))) = wordBE 64 (bytesAt m p n) i := by
  apply BitVec.eq_of_getLsbD_eq
  intro k hk
  rw [Simd.getLsbD_wordBE _ _ _ (by decide) (by simp; omega), getD_bytesAt _ _ (by omega), getLsbD_revb64 _ hk,
    getLsbD_ld _ _ _ (by omega) (by decide), add_add]
  simp only [hk, decide_true, Bool.true_and]
  exact bit_congr m p (by omega) (by omega)

/-- The words `f 0 … f (n-1)` stored one after the other. -/
def stWords {w : Nat} (m : Mem) (p : W64) (f : Nat → BitVec w) : Nat → Mem
  | 0 => m
  | n + 1 => st (stWords m p f n) (p + BitVec.ofNat 64 (w / 8 * n)) (f n)

theorem ld_stWords {w : Nat} (m : Mem) (p : W64) (f : Nat → BitVec w) {n k : Nat} (hk : k < n) (hw : 8 * (w / 8) = w) (hn : w * n < 2 ^ 32) :
    ld w (stWords m p f n) (p + BitVec.ofNat 64 (w / 8 * k)) = f k := by
  induction n with
  | zero => omega
  | succ n ih =>
    rw [stWords]
    by_cases e : k = n
    · subst e
      rw [ld_st_self _ _ _ hw]
      have : w * 1 ≤ w * (k + 1) := Nat.mul_le_mul_left _ (by omega)
      omega
    · have h1 : w / 8 * (k + 1) ≤ w / 8 * n := Nat.mul_le_mul_left _ (by omega)
      have h2 : w * (n + 1) = 8 * (w / 8 * n) + w := by rw [Nat.mul_succ, ← Nat.mul_assoc, hw]
      have h3 : w * (n + 1) = w * n + w := Nat.mul_succ _ _
      rw [Nat.mul_succ] at h1
      rw [ld_st_ne _ _ _ _ _ (by omega) (by omega) (by omega) (.inl h1)]
      exact ih (by omega) (by omega)

theorem stWords_frame {w : Nat} (m : Mem) (p : W64) (f : Nat → BitVec w) {n : Nat} (hw : 8 * (w / 8) = w) (hn : w * n < 2 ^ 32) {x : W64}
    (hx : w / 8 * n ≤ (x - p).toNat) : stWords m p f n x = m x := by
  induction n with
  | zero => rfl
  | succ n ih =>
    have h2 : w * (n + 1) = 8 * (w / 8 * n) + w := by rw [Nat.mul_succ, ← Nat.mul_assoc, hw]
    have h3 : w * (n + 1) = w * n + w := Nat.mul_succ _ _
    have h1 : w / 8 * n + w / 8 ≤ (x - p).toNat := by rw [← Nat.mul_succ]; exact hx
    rw [stWords, st_frame _ p (w / 8 * n + w / 8) _ _ (by omega) (by omega) (by omega) h1]
    exact ih (by omega) (by omega)

/-- The `bs`-byte blocks of an array of `n` blocks at `p`. -/
def blocksAt (bs : Nat) (m : Mem) (p : W64) (n : Nat) : List Bytes :=
  (List.range n).map fun k => bytesAt m (p + BitVec.ofNat 64 (bs * k)) bs

theorem blocksAt_succ (bs : Nat) (m : Mem) (p : W64) (n : Nat) :
    blocksAt bs m p (n + 1) = blocksAt bs m p n ++ [bytesAt m (p + BitVec.ofNat 64 (bs * n)) bs] := by
  simp [blocksAt, List.range_succ]

/-- Memory unchanged outside two areas. -/
def Frame2 (m m' : Mem) (p : W64) (n : Nat) (q : W64) (l : Nat) : Prop := ∀ x, n ≤ (x - p).toNat → l ≤ (x - q).toNat → m x = m' x

theorem ld_frame2 {w : Nat} {m m' : Mem} {p q r : W64} {n l l' y : Nat} (hf : Frame2 m m' q l r l') (hd : Disj p n q l) (hd' : Disj p n r l')
    (hy : y + w / 8 ≤ n) (hn : n < 2 ^ 64) : ld w m (p + BitVec.ofNat 64 y) = ld w m' (p + BitVec.ofNat 64 y) := by
  apply ld_congr
  intro k hk
  have : (p + BitVec.ofNat 64 y + BitVec.ofNat 64 k - p).toNat < n := by
    rw [add_add, add_sub_base _ _ (by omega)]; omega
  exact hf _ (hd _ this) (hd' _ this)

theorem bytesAt_frame2 {m m' : Mem} {p q r : W64} {n l l' y c : Nat} (hf : Frame2 m m' q l r l') (hd : Disj p n q l) (hd' : Disj p n r l')
    (hy : y + c ≤ n) (hn : n < 2 ^ 64) : bytesAt m (p + BitVec.ofNat 64 y) c = bytesAt m' (p + BitVec.ofNat 64 y) c := by
  apply bytesAt_congr
  intro k hk
  have : (p + BitVec.ofNat 64 y + BitVec.ofNat 64 k - p).toNat < n := by
    rw [add_add, add_sub_base _ _ (by omega)]; omega
  exact hf _ (hd _ this) (hd' _ this)

/-- A part of an area. -/
theorem Disj.sub {p q : W64} {n l y c : Nat} (h : Disj p n q l) (hy : y + c ≤ n) (hn : n < 2 ^ 64) :
    Disj (p + BitVec.ofNat 64 y) c q l := by
  intro x hx
  apply h
  have e : x - p = (x - (p + BitVec.ofNat 64 y)) + BitVec.ofNat 64 y := by
    rw [← BitVec.sub_sub, BitVec.sub_add_cancel]
  rw [e, BitVec.toNat_add, BitVec.toNat_ofNat, Nat.mod_eq_of_lt (a := y) (by omega), Nat.mod_eq_of_lt (by omega)]
  omega

theorem dec_ofNat {n k : Nat} (hk : k < n) (hn : n < 2 ^ 64) :
    BitVec.ofNat 64 (n - k) + BitVec.ofInt 64 (-1) = BitVec.ofNat 64 (n - (k + 1)) := by
  apply BitVec.eq_of_toNat_eq
  rw [BitVec.toNat_add, BitVec.toNat_ofNat, BitVec.toNat_ofNat, show (BitVec.ofInt 64 (-1)).toNat = 2 ^ 64 - 1 by decide,
    Nat.mod_eq_of_lt (a := n - k) (by omega), Nat.mod_eq_of_lt (a := n - (k + 1)) (by omega)]
  omega

end Hashes.Loong
