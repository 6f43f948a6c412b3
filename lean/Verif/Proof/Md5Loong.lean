import Verif.Model.Md5Loong
import Verif.Proof.Loong
import Verif.Proof.Md5
/- MD5, LoongArch assembly. -/
namespace Hashes.Md5.Loong
open Hashes.Loong

/-- The registers that hold the working variables. -/
def tr : Nat → Reg
  | 0 => .t0 | 1 => .t1 | 2 => .t2 | _ => .t3

/-- The register of working variable `k` (0 is `a`) when the variables are rotated by `c`. -/
def rg (c k : Nat) : Reg := tr ((k + c) % 4)

/-- The working variables. -/
def view (c : Nat) (s : St) : V4 W32 := V4.ofFn fun k => lo (s.reg (rg c k))

theorem view_congr {c c' : Nat} (h : c % 4 = c' % 4) (s : St) : view c s = view c' s := by
  have : ∀ k, (k + c) % 4 = (k + c') % 4 := by omega
  simp only [view, rg, this]

/-- The chaining value. -/
def chain (s : St) : V4 W32 := ⟨lo (s.reg .a4), lo (s.reg .a5), lo (s.reg .a6), lo (s.reg .a7)⟩

/-- The registers that a round does not change. -/
def Fixed (x : Reg) : Prop :=
  x = .sp ∨ x = .a0 ∨ x = .a1 ∨ x = .a2 ∨ x = .a3 ∨ x = .a4 ∨ x = .a5 ∨ x = .a6 ∨ x = .a7

theorem rotr_compl (x : W32) {n : Nat} (h0 : 0 < n) (h : n < 32) : x.rotateRight (32 - n) = x.rotateLeft n := by
  rw [BitVec.rotateRight_def, BitVec.rotateLeft_def, BitVec.or_comm, Nat.mod_eq_of_lt (a := 32 - n) (by omega), Nat.mod_eq_of_lt h,
    show 32 - (32 - n) = n by omega]

theorem F_perm (x y z : W32) : ((y ^^^ z) &&& x) ^^^ z = Spec.Md5.F x y z := by
  apply BitVec.eq_of_getLsbD_eq
  intro k hk
  simp only [Spec.Md5.F, BitVec.getLsbD_or, BitVec.getLsbD_and, BitVec.getLsbD_xor, BitVec.getLsbD_not, hk, decide_true, Bool.true_and]
  cases x.getLsbD k <;> cases y.getLsbD k <;> cases z.getLsbD k <;> rfl
theorem G_perm (x y z : W32) : (y &&& ~~~ z) ||| (z &&& x) = Spec.Md5.G x y z := by
  rw [Spec.Md5.G, BitVec.or_comm, BitVec.and_comm z x]
theorem H_perm (x y z : W32) : (y ^^^ z) ^^^ x = Spec.Md5.H x y z := by
  rw [Spec.Md5.H, BitVec.xor_comm, BitVec.xor_assoc]
theorem I_perm (x y z : W32) : (x ||| ~~~ z) ^^^ y = Spec.Md5.I x y z := by
  rw [Spec.Md5.I, BitVec.xor_comm]

/-- A step of round `q + 1` of RFC 1321. -/
def rq (q : Nat) (a b c d : Reg) (k s i : Nat) : List Instr :=
  match q with | 0 => round0 a b c d k s i | 1 => round1 a b c d k s i | 2 => round2 a b c d k s i | _ => round3 a b c d k s i

/-- Its function. -/
def fv (q : Nat) : W32 → W32 → W32 → W32 := match q with | 0 => Spec.Md5.F | 1 => Spec.Md5.G | 2 => Spec.Md5.H | _ => Spec.Md5.I

theorem func_eq {q i : Nat} (hq : q < 4) (hi : i / 16 = q) : Spec.Md5.func i = fv q := by
  unfold Spec.Md5.func
  rcases q with _ | _ | _ | _ | q
  · rw [if_pos (by omega)]; rfl
  · rw [if_neg (by omega), if_pos (by omega)]; rfl
  · rw [if_neg (by omega), if_neg (by omega), if_pos (by omega)]; rfl
  · rw [if_neg (by omega), if_neg (by omega), if_neg (by omega)]; rfl
  · omega

theorem rq_view (c : Nat) (hc : c < 4) (q : Nat) (hq : q < 4) (k n i : Nat) (hn : 0 < n) (hn' : n < 32) (s : St) :
    view (c + 3) (run (rq q (rg c 0) (rg c 1) (rg c 2) (rg c 3) k n i) s) =
      ⟨(view c s).x3, (view c s).x1 + ((view c s).x0 + fv q (view c s).x1 (view c s).x2 (view c s).x3 +
        ld 32 s.mem (s.reg .a1 + BitVec.ofNat 64 (k * 4)) + ld 32 s.mem (s.reg .a3 + BitVec.ofNat 64 (i * 4))).rotateLeft n,
        (view c s).x1, (view c s).x2⟩ := by
  have hadd : ∀ a t x f : W32, a + t + x + f = a + f + x + t := by intros; ac_rfl
  rcases c with _ | _ | _ | _ | c
  case succ.succ.succ.succ => omega
  all_goals
    rcases q with _ | _ | _ | _ | q
    case succ.succ.succ.succ => omega
    all_goals
      simp only [view, V4.ofFn, rg, tr, Nat.reduceAdd, Nat.reduceMod, Nat.zero_add, Nat.add_zero, rq, fv, round0, round1, round2, round3, roundtail,
        List.cons_append, List.nil_append]
      loong
      rw [rotr_compl _ hn hn', BitVec.add_comm (BitVec.rotateLeft _ _)]
      simp only [F_perm, G_perm, H_perm, I_perm, hadd]

theorem rq_fixed (c : Nat) (hc : c < 4) (q : Nat) (hq : q < 4) (k n i : Nat) (s : St) (x : Reg) (hx : Fixed x) :
    (run (rq q (rg c 0) (rg c 1) (rg c 2) (rg c 3) k n i) s).reg x = s.reg x := by
  rcases c with _ | _ | _ | _ | c
  case succ.succ.succ.succ => omega
  all_goals
    rcases q with _ | _ | _ | _ | q
    case succ.succ.succ.succ => omega
    all_goals
      rcases hx with rfl | rfl | rfl | rfl | rfl | rfl | rfl | rfl | rfl <;> exact run_keeps rfl s

theorem rq_mem (a b c d : Reg) (q : Nat) (k n i : Nat) (s : St) : (run (rq q a b c d k n i) s).mem = s.mem := by
  apply run_pure
  unfold rq
  split <;> rfl

/-- Step `i`. -/
def rnd (i : Nat) : List Instr :=
  rq (i / 16) (rg (3 * i % 4) 0) (rg (3 * i % 4) 1) (rg (3 * i % 4) 2) (rg (3 * i % 4) 3) (Spec.Md5.index i) (Spec.Md5.shift i) i

theorem rounds_eq : rounds = (List.range 64).map rnd := by rfl

theorem shift_index : ∀ i < 64, 0 < Spec.Md5.shift i ∧ Spec.Md5.shift i < 32 ∧ Spec.Md5.index i < 16 := by decide

/-- What holds after `i` steps on a block that started in the machine state `b`. -/
structure RInv (b : St) (v : V4 W32) (blk : Bytes) (i : Nat) (s : St) : Prop where
  fixed : ∀ x, Fixed x → s.reg x = b.reg x
  view : view (3 * i % 4) s = Spec.Md5.steps (wordLE 32 blk) i v
  mem : s.mem = b.mem

theorem round_step {b : St} {v : V4 W32} {i : Nat} {s : St} (hi : i < 64)
    (hK : ∀ i < 64, ld 32 b.mem (b.reg .a3 + BitVec.ofNat 64 (4 * i)) = Spec.Md5.Ts.getD i 0)
    (h : RInv b v (bytesAt b.mem (b.reg .a1) 64) i s) : RInv b v (bytesAt b.mem (b.reg .a1) 64) (i + 1) (run (rnd i) s) := by
  have ha1 : s.reg .a1 = b.reg .a1 := h.fixed _ (.inr (.inr (.inl rfl)))
  have ha3 : s.reg .a3 = b.reg .a3 := h.fixed _ (.inr (.inr (.inr (.inr (.inl rfl)))))
  obtain ⟨s0, s1, s2⟩ := shift_index i hi
  have hc : 3 * i % 4 < 4 := Nat.mod_lt _ (by decide)
  have hq : i / 16 < 4 := by omega
  have hx : ld 32 b.mem (b.reg .a1 + BitVec.ofNat 64 (4 * Spec.Md5.index i)) = wordLE 32 (bytesAt b.mem (b.reg .a1) 64) (Spec.Md5.index i) :=
    ld_eq_wordLE (w := 32) b.mem (b.reg .a1) 64 (Spec.Md5.index i) (by decide) (by omega)
  constructor
  · intro x hx
    rw [rnd, rq_fixed _ hc _ hq _ _ _ _ _ hx, h.fixed x hx]
  · rw [rnd, view_congr (c' := 3 * i % 4 + 3) (by omega), rq_view _ hc _ hq _ _ _ s0 s1, h.view, h.mem, ha1, ha3, Nat.mul_comm _ 4, Nat.mul_comm _ 4, hx,
      hK i hi, ← func_eq hq rfl]
    rfl
  · rw [rnd, rq_mem, h.mem]

theorem rounds_inv {b : St} {v : V4 W32} (hv : view 0 b = v)
    (hK : ∀ i < 64, ld 32 b.mem (b.reg .a3 + BitVec.ofNat 64 (4 * i)) = Spec.Md5.Ts.getD i 0) :
    RInv b v (bytesAt b.mem (b.reg .a1) 64) 64 (run rounds.flatten b) := by
  rw [rounds_eq]
  apply run_flatten rnd
  · intro i s hi h
    exact round_step hi hK h
  · exact ⟨fun _ _ => rfl, hv, rfl⟩

/-! ### All blocks -/

/-- What the caller provides: `n` blocks at `a1`, the constants at `a3`, the chaining value in the low halves of `a4 … a7`. -/
structure Pre (s : St) (v : V4 W32) (n : Nat) : Prop where
  cnt : s.reg .a2 = BitVec.ofNat 64 n
  len : 64 * n < 2 ^ 64
  state : chain s = v
  consts : ∀ i < 64, ld 32 s.mem (s.reg .a3 + BitVec.ofNat 64 (4 * i)) = rc i

/-- What holds after `k` blocks. -/
structure BInv (b : St) (v : V4 W32) (n k : Nat) (s : St) : Prop where
  sp : s.reg .sp = b.reg .sp
  a0 : s.reg .a0 = b.reg .a0
  a3 : s.reg .a3 = b.reg .a3
  a1 : s.reg .a1 = b.reg .a1 + BitVec.ofNat 64 (64 * k)
  a2 : s.reg .a2 = BitVec.ofNat 64 (n - k)
  state : chain s = (blocksAt 64 b.mem (b.reg .a1) k).foldl Spec.Md5.compress v
  mem : s.mem = b.mem

theorem block_step {b : St} {v : V4 W32} {n k : Nat} {s : St} (p : Pre b v n) (hk : k < n) (h : BInv b v n k s) :
    BInv b v n (k + 1) (run body s) := by
  have hlen := p.len
  have hbody : run body s = run update (run rounds.flatten (run setup s)) := by
    rw [body, run_append, run_append]
  rw [hbody]
  have g : ∀ x, Fixed x → (run setup s).reg x = s.reg x := by
    intro x hx
    rcases hx with rfl | rfl | rfl | rfl | rfl | rfl | rfl | rfl | rfl <;> exact run_keeps rfl s
  have gm : (run setup s).mem = b.mem := by rw [run_pure rfl, h.mem]
  have ga1 : (run setup s).reg .a1 = b.reg .a1 + BitVec.ofNat 64 (64 * k) := by rw [g _ (.inr (.inr (.inl rfl))), h.a1]
  have ga3 : (run setup s).reg .a3 = b.reg .a3 := by rw [g _ (.inr (.inr (.inr (.inr (.inl rfl))))), h.a3]
  have gv : view 0 (run setup s) = chain s := by
    simp only [view, V4.ofFn, rg, tr, Nat.reduceMod, Nat.add_zero, Nat.zero_mod, setup, chain]
    loong
  have r := rounds_inv gv (by rw [gm, ga3, Ts_eq]; exact p.consts)
  rw [gm, ga1, h.state] at r
  generalize hs1 : run rounds.flatten (run setup s) = s1 at r
  have f : ∀ x, Fixed x → s1.reg x = s.reg x := fun x hx => by rw [r.fixed x hx, g x hx]
  have hv1 := r.view
  have hu : chain (run update s1) = (chain s1).zip (· + ·) (view 0 s1) := by
    simp only [view, V4.ofFn, V4.zip, rg, tr, Nat.reduceMod, Nat.add_zero, Nat.zero_mod, update, chain]
    loong
  have hch : chain s1 = chain s := by
    simp only [chain, f .a4 (by simp [Fixed]), f .a5 (by simp [Fixed]), f .a6 (by simp [Fixed]), f .a7 (by simp [Fixed])]
  constructor
  · rw [run_keeps rfl, f _ (by simp [Fixed]), h.sp]
  · rw [run_keeps rfl, f _ (by simp [Fixed]), h.a0]
  · rw [run_keeps rfl, f _ (by simp [Fixed]), h.a3]
  · have : (run update s1).reg .a1 = s1.reg .a1 + BitVec.ofInt 64 64 := by unfold update; loong
    rw [this, f _ (by simp [Fixed]), h.a1, show BitVec.ofInt 64 64 = BitVec.ofNat 64 64 from rfl, add_add, Nat.mul_succ]
  · have : (run update s1).reg .a2 = s1.reg .a2 + BitVec.ofInt 64 (-1) := by unfold update; loong
    rw [this, f _ (by simp [Fixed]), h.a2, dec_ofNat hk (by omega)]
  · rw [hu, hch, h.state, blocksAt_succ, List.foldl_append]
    show V4.zip _ _ (view (3 * 64 % 4) s1) = _
    rw [hv1]
    rfl
  · rw [run_pure rfl, r.mem, gm]

/-- The assembly of `compress` for at least one block: it ends, the chaining value has absorbed all blocks, the stack pointer
and `a3` are as before, and memory has not changed. -/
theorem asm_eq {s : St} {v : V4 W32} {n fuel : Nat} (p : Pre s v n) (hn : 0 < n) (hf : n ≤ fuel) :
    ∃ s', asm fuel s = some s' ∧ chain s' = (blocksAt 64 s.mem (s.reg .a1) n).foldl Spec.Md5.compress v ∧
      s'.reg .sp = s.reg .sp ∧ s'.reg .a0 = s.reg .a0 ∧ s'.reg .a3 = s.reg .a3 ∧ s'.mem = s.mem := by
  have hlen := p.len
  have h0 : BInv s v n 0 (run prologue s) := by
    refine ⟨rfl, rfl, rfl, ?_, ?_, p.state, rfl⟩
    · rw [Nat.mul_zero, BitVec.add_zero]; rfl
    · exact p.cnt
  obtain ⟨s1, e, h⟩ := loop_inv (body := body) (r := .a2) (BInv s v n) hn (by omega) (fun k t _ h => h.a2)
    (fun k t hk h => block_step p hk h) h0 hf
  exact ⟨s1, by rw [asm, e]; rfl, h.state, h.sp, h.a0, h.a3, h.mem⟩

end Hashes.Md5.Loong
