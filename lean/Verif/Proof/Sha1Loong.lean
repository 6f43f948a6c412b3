import Verif.Model.Sha1Loong
import Verif.Proof.Loong
import Verif.Proof.Sha1
/- SHA-1, LoongArch assembly. -/
namespace Hashes.Sha1.Loong
open Hashes.Loong Spec

/-- The registers that hold the working variables. -/
def tr : Nat → Reg
  | 0 => .t0 | 1 => .t1 | 2 => .t2 | 3 => .t3 | _ => .t4

/-- The register of working variable `k` (0 is `a`) when the variables are rotated by `c`. -/
def rg (c k : Nat) : Reg := tr ((k + c) % 5)

/-- The working variables. -/
def view (c : Nat) (s : St) : V5 W32 := V5.ofFn fun k => lo (s.reg (rg c k))

theorem view_congr {c c' : Nat} (h : c % 5 = c' % 5) (s : St) : view c s = view c' s := by
  have : ∀ k, (k + c) % 5 = (k + c') % 5 := by omega
  simp only [view, rg, this]

/-- The registers that a round does not change. -/
def Fixed (x : Reg) : Prop := x = .sp ∨ x = .a0 ∨ x = .a1 ∨ x = .a2 ∨ x = .a4 ∨ x = .a5 ∨ x = .a6 ∨ x = .a7

theorem rotl5 (x : W32) : x.rotateRight 27 = x.rotateLeft 5 := by
  rw [BitVec.rotateRight_def, BitVec.rotateLeft_def, BitVec.or_comm]
theorem rotl30 (x : W32) : x.rotateRight 2 = x.rotateLeft 30 := by
  rw [BitVec.rotateRight_def, BitVec.rotateLeft_def, BitVec.or_comm]
theorem rotl1 (x : W32) : x.rotateRight 31 = x.rotateLeft 1 := by
  rw [BitVec.rotateRight_def, BitVec.rotateLeft_def, BitVec.or_comm]
theorem ch_perm (x y z : W32) : ((y ^^^ z) &&& x) ^^^ z = Ch x y z := by
  rw [← ch_alt, BitVec.and_comm, BitVec.xor_comm]
theorem maj_or (x y z : W32) : ((y ||| z) &&& x) ||| (y &&& z) = Maj x y z := by
  apply BitVec.eq_of_getLsbD_eq
  intro k _
  simp only [Maj, BitVec.getLsbD_or, BitVec.getLsbD_and, BitVec.getLsbD_xor]
  cases x.getLsbD k <;> cases y.getLsbD k <;> cases z.getLsbD k <;> rfl

/-! ### Rounds -/

/-- The Boolean function of the four groups of rounds. -/
def fq (q : Nat) (b c d : Reg) : List Instr :=
  match q with
  | 0 => [.xor .t5 c d, .and .t5 .t5 b, .xor .t5 .t5 d]
  | 2 => [.or .t5 c d, .and .t5 .t5 b, .and .t7 c d, .or .t5 .t5 .t7]
  | _ => [.xor .t5 b c, .xor .t5 .t5 d]

/-- The register of the round constant. -/
def kq (q : Nat) : Reg := match q with | 0 => .a4 | 1 => .a5 | 2 => .a6 | _ => .a7

/-- The function itself. -/
def fv (q : Nat) (x y z : W32) : W32 := match q with | 0 => Ch x y z | 2 => Maj x y z | _ => Parity x y z

theorem f_eq {q i : Nat} (hq : q < 4) (hi : i / 20 = q) (x y z : W32) : Spec.Sha1.f i x y z = fv q x y z := by
  unfold Spec.Sha1.f
  rcases q with _ | _ | _ | _ | q
  · rw [if_pos (by omega)]; rfl
  · rw [if_neg (by omega), if_pos (by omega)]; rfl
  · rw [if_neg (by omega), if_neg (by omega), if_pos (by omega)]; rfl
  · rw [if_neg (by omega), if_neg (by omega), if_neg (by omega)]; rfl
  · omega

/-- A round once the message word is in `t5`. -/
def tail (q i : Nat) (a b c d e : Reg) : List Instr :=
  [.addw e e .t5, .stw .t5 .sp (i % 16 * 4)] ++ fq q b c d ++ roundtail a b e i (kq q)

theorem tail_view (c : Nat) (hc : c < 5) (q : Nat) (hq : q < 4) (i : Nat) (s : St) (hi : i / 20 = q) (hK : lo (s.reg (kq q)) = Spec.Sha1.K i) :
    view (c + 4) (run (tail q i (rg c 0) (rg c 1) (rg c 2) (rg c 3) (rg c 4)) s) = Spec.Sha1.round i (lo (s.reg .t5)) (view c s) := by
  have hadd : ∀ e w f k a : W32, e + w + f + k + a = a + f + e + k + w := by intros; ac_rfl
  rw [Spec.Sha1.round, f_eq hq hi, ← hK]
  rcases c with _ | _ | _ | _ | _ | c
  case succ.succ.succ.succ.succ => omega
  all_goals
    rcases q with _ | _ | _ | _ | q
    case succ.succ.succ.succ => omega
    all_goals
      simp only [view, V5.ofFn, rg, tr, Nat.reduceAdd, Nat.reduceMod, Nat.zero_add, Nat.add_zero, tail, fq, fv, kq, roundtail, List.cons_append,
        List.nil_append]
      loong
      simp only [ch_perm, maj_or, rotl5, rotl30, hadd, Parity]

theorem tail_fixed (c : Nat) (hc : c < 5) (q : Nat) (hq : q < 4) (i : Nat) (s : St) (x : Reg) (hx : Fixed x) :
    (run (tail q i (rg c 0) (rg c 1) (rg c 2) (rg c 3) (rg c 4)) s).reg x = s.reg x := by
  rcases c with _ | _ | _ | _ | _ | c
  case succ.succ.succ.succ.succ => omega
  all_goals
    rcases q with _ | _ | _ | _ | q
    case succ.succ.succ.succ => omega
    all_goals
      rcases hx with rfl | rfl | rfl | rfl | rfl | rfl | rfl | rfl <;> exact run_keeps rfl s

theorem tail_mem (q i : Nat) (a b c d e : Reg) (he : e ≠ .sp) (he' : e ≠ .t5) (s : St) :
    (run (tail q i a b c d e) s).mem = Hashes.Loong.st s.mem (s.reg .sp + BitVec.ofNat 64 (i % 16 * 4)) (lo (s.reg .t5)) := by
  rw [tail, run_append, run_append, run_pure (p := roundtail a b e i (kq q)) rfl, run_pure (p := fq q b c d) (by unfold fq; split <;> rfl)]
  loong
  rw [if_neg (fun h => he h.symm), if_neg (fun h => he' h.symm)]

/-! ### Message words -/

/-- The load of a message word. -/
def loadW (i : Nat) : List Instr := [.ldw .t5 .a1 (i * 4), .revb2h .t5 .t5, .rotriw .t5 .t5 16]

/-- The message expansion. -/
def expandW (i : Nat) : List Instr :=
  [.ldw .t5 .sp (((i - 3) &&& 0xF) * 4),
    .ldw .t6 .sp (((i - 8) &&& 0xF) * 4),
    .ldw .t7 .sp (((i - 14) &&& 0xF) * 4),
    .ldw .t8 .sp (((i - 16) &&& 0xF) * 4),
    .xor .t5 .t5 .t6,
    .xor .t5 .t5 .t7,
    .xor .t5 .t5 .t8,
    .rotriw .t5 .t5 31]

/-- The head of round `i`. -/
def head (i : Nat) : List Instr := if i < 16 then loadW i else expandW i

/-- Round `i`. -/
def rnd (i : Nat) : List Instr :=
  head i ++ tail (i / 20) i (rg (4 * i % 5) 0) (rg (4 * i % 5) 1) (rg (4 * i % 5) 2) (rg (4 * i % 5) 3) (rg (4 * i % 5) 4)

theorem rounds_eq : rounds = (List.range 80).map rnd := by rfl

theorem loadW_t5 (i : Nat) (s : St) :
    lo ((run (loadW i) s).reg .t5) = (revb2h32 (ld 32 s.mem (s.reg .a1 + BitVec.ofNat 64 (i * 4)))).rotateRight 16 := by
  unfold loadW; loong

theorem expandW_t5 (i : Nat) (s : St) :
    lo ((run (expandW i) s).reg .t5) =
      (ld 32 s.mem (s.reg .sp + BitVec.ofNat 64 (((i - 3) &&& 0xF) * 4)) ^^^ ld 32 s.mem (s.reg .sp + BitVec.ofNat 64 (((i - 8) &&& 0xF) * 4)) ^^^
        ld 32 s.mem (s.reg .sp + BitVec.ofNat 64 (((i - 14) &&& 0xF) * 4)) ^^^
        ld 32 s.mem (s.reg .sp + BitVec.ofNat 64 (((i - 16) &&& 0xF) * 4))).rotateLeft 1 := by
  unfold expandW; loong
  rw [rotl1]

theorem head_keeps (i : Nat) (s : St) (x : Reg) (h5 : x ≠ .t5) (h6 : x ≠ .t6) (h7 : x ≠ .t7) (h8 : x ≠ .t8) :
    (run (head i) s).reg x = s.reg x := by
  apply run_keeps
  unfold head
  split
  · cases x <;> first | rfl | contradiction
  · cases x <;> first | rfl | contradiction

theorem head_mem (i : Nat) (s : St) : (run (head i) s).mem = s.mem := by
  apply run_pure
  unfold head
  split <;> rfl

theorem head_view (c i : Nat) (s : St) : view c (run (head i) s) = view c s := by
  have : ∀ k, (run (head i) s).reg (rg c k) = s.reg (rg c k) := by
    intro k
    apply head_keeps <;> (rw [rg]; unfold tr; split <;> exact Reg.noConfusion)
  simp only [view, this]

/-! ### One block -/

/-- The round constants are in `a4 … a7`. -/
def Consts (s : St) : Prop := ∀ i < 80, lo (s.reg (kq (i / 20))) = Spec.Sha1.K i

theorem consts_of {s : St} (h : ∀ q < 4, lo (s.reg (kq q)) = Sha1.K q) : Consts s := by
  have hk : ∀ i < 80, Sha1.K (i / 20) = Spec.Sha1.K i := by decide +kernel
  intro i hi
  rw [h _ (by omega), hk i hi]

/-- What holds after `i` rounds on a block that started in the machine state `b` with the chaining value `v`. -/
structure RInv (b : St) (v : V5 W32) (blk : Bytes) (i : Nat) (s : St) : Prop where
  fixed : ∀ x, Fixed x → s.reg x = b.reg x
  view : view (4 * i % 5) s = Spec.Sha1.rounds (W blk) i v
  win : ∀ j < i, i ≤ j + 16 → ld 32 s.mem (b.reg .sp + BitVec.ofNat 64 (4 * (j % 16))) = W blk j
  frame : ∀ x, 64 ≤ (x - b.reg .sp).toNat → s.mem x = b.mem x

theorem kq_fixed (q : Nat) : Fixed (kq q) := by
  unfold kq Fixed
  split <;> simp

theorem round_step {b : St} {v : V5 W32} {i : Nat} {s : St} (hi : i < 80) (hK : Consts b) (hd1 : Disj (b.reg .a1) 64 (b.reg .sp) 64)
    (h : RInv b v (bytesAt b.mem (b.reg .a1) 64) i s) : RInv b v (bytesAt b.mem (b.reg .a1) 64) (i + 1) (run (rnd i) s) := by
  have hsp : s.reg .sp = b.reg .sp := h.fixed _ (.inl rfl)
  have ha1 : s.reg .a1 = b.reg .a1 := h.fixed _ (.inr (.inr (.inl rfl)))
  have hb : lo ((run (head i) s).reg .t5) = W (bytesAt b.mem (b.reg .a1) 64) i := by
    unfold head
    split
    · rename_i h16
      have : bytesAt s.mem (b.reg .a1 + BitVec.ofNat 64 0) 64 = bytesAt b.mem (b.reg .a1 + BitVec.ofNat 64 0) 64 :=
        bytesAt_frame h.frame hd1 (by omega) (by omega)
      rw [BitVec.add_zero] at this
      rw [loadW_t5, ha1, Nat.mul_comm, swap32 _ _ 64 i (by omega), this, W_lt _ h16]
    · obtain ⟨t, rfl⟩ : ∃ t, i = t + 16 := ⟨i - 16, by omega⟩
      have e0 := h.win t (by omega) (by omega)
      have e2 := h.win (t + 2) (by omega) (by omega)
      have e8 := h.win (t + 8) (by omega) (by omega)
      have e13 := h.win (t + 13) (by omega) (by omega)
      rw [expandW_t5, hsp, and15, and15, and15, and15, Nat.mul_comm _ 4, Nat.mul_comm _ 4, Nat.mul_comm _ 4, Nat.mul_comm _ 4,
        show t + 16 - 16 = t by omega, show t + 16 - 14 = t + 2 by omega, show t + 16 - 8 = t + 8 by omega,
        show t + 16 - 3 = t + 13 by omega, e0, e2, e8, e13, W_ge _ (by omega)]
  have hc : 4 * i % 5 < 5 := Nat.mod_lt _ (by decide)
  have hq : i / 20 < 4 := by omega
  have hk : ∀ x, Fixed x → (run (head i) s).reg x = b.reg x := by
    intro x hx
    rw [← h.fixed x hx]
    rcases hx with rfl | rfl | rfl | rfl | rfl | rfl | rfl | rfl <;> (apply head_keeps <;> exact Reg.noConfusion)
  have hmem : (run (rnd i) s).mem = Hashes.Loong.st s.mem (b.reg .sp + BitVec.ofNat 64 (4 * (i % 16))) (W (bytesAt b.mem (b.reg .a1) 64) i) := by
    rw [rnd, run_append, tail_mem _ _ _ _ _ _ _ (by rw [rg]; unfold tr; split <;> exact Reg.noConfusion)
      (by rw [rg]; unfold tr; split <;> exact Reg.noConfusion), head_mem, hb, hk _ (.inl rfl), Nat.mul_comm]
  constructor
  · intro x hx
    rw [rnd, run_append, tail_fixed _ hc _ hq _ _ _ hx, hk x hx]
  · rw [rnd, run_append, view_congr (c' := 4 * i % 5 + 4) (by omega),
      tail_view _ hc _ hq _ _ rfl (by rw [hk _ (kq_fixed _)]; exact hK i hi), head_view, h.view, hb]
    rfl
  · intro j hj hj'
    rw [hmem]
    by_cases e : j = i
    · subst e
      exact ld_st_self _ _ _ (by decide) (by decide)
    · rw [ld_st_ne _ _ _ _ _ (by omega) (by omega) (by decide) (by omega)]
      exact h.win j (by omega) (by omega)
  · intro x hx
    rw [hmem, st_frame _ _ 64 _ _ (by decide) (by omega) (by decide) hx]
    exact h.frame x hx

theorem rounds_inv {b : St} {v : V5 W32} (hv : view 0 b = v) (hK : Consts b) (hd1 : Disj (b.reg .a1) 64 (b.reg .sp) 64) :
    RInv b v (bytesAt b.mem (b.reg .a1) 64) 80 (run rounds.flatten b) := by
  rw [rounds_eq]
  apply run_flatten rnd
  · intro i s hi h
    exact round_step hi hK hd1 h
  · exact ⟨fun _ _ => rfl, hv, fun _ h => by omega, fun _ _ => rfl⟩

/-- The addition of the chaining value kept in memory. -/
theorem update_view (s : St) (v : V5 W32) (hm : ∀ k < 5, ld 32 s.mem (s.reg .a0 + BitVec.ofNat 64 (4 * k)) = v.get k) :
    view 0 (run update s) = v.zip (· + ·) (view 0 s) := by
  have h0 := hm 0 (by decide); have h1 := hm 1 (by decide); have h2 := hm 2 (by decide); have h3 := hm 3 (by decide)
  have h4 := hm 4 (by decide)
  simp only [Nat.reduceMul] at h0 h1 h2 h3 h4
  obtain ⟨v0, v1, v2, v3, v4⟩ := v
  simp only [V5.get] at h0 h1 h2 h3 h4
  simp only [view, V5.ofFn, V5.zip, rg, tr, Nat.reduceAdd, Nat.reduceMod, Nat.add_zero, Nat.zero_mod, update]
  loong
  simp only [h0, h1, h2, h3, h4]
  simp only [BitVec.add_comm]

theorem update_mem (s : St) (v : V5 W32) (hm : ∀ k < 5, ld 32 s.mem (s.reg .a0 + BitVec.ofNat 64 (4 * k)) = v.get k) :
    (run update s).mem = stWords s.mem (s.reg .a0) (v.zip (· + ·) (view 0 s)).get 5 := by
  have h0 := hm 0 (by decide); have h1 := hm 1 (by decide); have h2 := hm 2 (by decide); have h3 := hm 3 (by decide)
  have h4 := hm 4 (by decide)
  simp only [Nat.reduceMul] at h0 h1 h2 h3 h4
  obtain ⟨v0, v1, v2, v3, v4⟩ := v
  simp only [V5.get] at h0 h1 h2 h3 h4
  simp only [view, V5.ofFn, V5.zip, rg, tr, Nat.reduceAdd, Nat.reduceMod, Nat.add_zero, Nat.zero_mod, update]
  loong
  simp only [stWords, h0, h1, h2, h3, h4, V5.get, Nat.reduceMul,
    Nat.reduceDiv, Nat.mul_zero]
  simp only [BitVec.add_comm]

theorem prologue_view (s : St) (v : V5 W32) (hm : ∀ k < 5, ld 32 s.mem (s.reg .a0 + BitVec.ofNat 64 (4 * k)) = v.get k) :
    view 0 (run prologue s) = v := by
  have h0 := hm 0 (by decide); have h1 := hm 1 (by decide); have h2 := hm 2 (by decide); have h3 := hm 3 (by decide)
  have h4 := hm 4 (by decide)
  simp only [Nat.reduceMul] at h0 h1 h2 h3 h4
  obtain ⟨v0, v1, v2, v3, v4⟩ := v
  simp only [V5.get] at h0 h1 h2 h3 h4
  simp only [view, V5.ofFn, rg, tr, Nat.reduceAdd, Nat.reduceMod, Nat.add_zero, Nat.zero_mod, prologue]
  loong
  simp only [h0, h1, h2, h3, h4]

/-! ### All blocks -/

/-- What the caller provides: the chaining value at `a0`, `n` blocks at `a1`, the round constants in `a4 … a7`, 64 bytes below
the stack pointer that no other area reaches, and a chaining value disjoint from the blocks. -/
structure Pre (s : St) (v : V5 W32) (n : Nat) : Prop where
  cnt : s.reg .a2 = BitVec.ofNat 64 n
  len : 64 * n < 2 ^ 64
  state : ∀ k < 5, ld 32 s.mem (s.reg .a0 + BitVec.ofNat 64 (4 * k)) = v.get k
  consts : ∀ q < 4, lo (s.reg (kq q)) = Sha1.K q
  d10 : Disj (s.reg .a1) (64 * n) (s.reg .a0) 20
  d1s : Disj (s.reg .a1) (64 * n) (s.reg .sp + BitVec.ofInt 64 (-64)) 64
  d0s : Disj (s.reg .a0) 20 (s.reg .sp + BitVec.ofInt 64 (-64)) 64

/-- What holds after `k` blocks. -/
structure BInv (b : St) (v : V5 W32) (n k : Nat) (s : St) : Prop where
  sp : s.reg .sp = b.reg .sp + BitVec.ofInt 64 (-64)
  a0 : s.reg .a0 = b.reg .a0
  ks : ∀ q, s.reg (kq q) = b.reg (kq q)
  a1 : s.reg .a1 = b.reg .a1 + BitVec.ofNat 64 (64 * k)
  a2 : s.reg .a2 = BitVec.ofNat 64 (n - k)
  view : view 0 s = (blocksAt 64 b.mem (b.reg .a1) k).foldl Spec.Sha1.compress v
  state : ∀ j < 5, ld 32 s.mem (b.reg .a0 + BitVec.ofNat 64 (4 * j)) = ((blocksAt 64 b.mem (b.reg .a1) k).foldl Spec.Sha1.compress v).get j
  frame : Frame2 s.mem b.mem (b.reg .a0) 20 (b.reg .sp + BitVec.ofInt 64 (-64)) 64

theorem block_step {b : St} {v : V5 W32} {n k : Nat} {s : St} (p : Pre b v n) (hk : k < n) (h : BInv b v n k s) :
    BInv b v n (k + 1) (run body s) := by
  have hlen := p.len
  have hmul : 64 * (k + 1) ≤ 64 * n := Nat.mul_le_mul_left _ hk
  have hblk : bytesAt s.mem (s.reg .a1) 64 = bytesAt b.mem (b.reg .a1 + BitVec.ofNat 64 (64 * k)) 64 := by
    rw [h.a1, bytesAt_frame2 h.frame p.d10 p.d1s (by omega) (by omega)]
  have r := rounds_inv (b := s) rfl
    (by intro i hi; rw [h.ks]; exact consts_of p.consts i hi) (by rw [h.a1, h.sp]; exact p.d1s.sub (by omega) (by omega))
  rw [hblk] at r
  have hbody : run body s = run update (run rounds.flatten s) := by
    rw [body, run_append, run_append]; rfl
  rw [hbody]
  generalize hs1 : run rounds.flatten s = s1 at r
  have f0 : s1.reg .a0 = b.reg .a0 := by rw [r.fixed _ (.inr (.inl rfl)), h.a0]
  have fsp : s1.reg .sp = b.reg .sp + BitVec.ofInt 64 (-64) := by rw [r.fixed _ (.inl rfl), h.sp]
  have f1 : s1.reg .a1 = b.reg .a1 + BitVec.ofNat 64 (64 * k) := by rw [r.fixed _ (.inr (.inr (.inl rfl))), h.a1]
  have f2 : s1.reg .a2 = BitVec.ofNat 64 (n - k) := by rw [r.fixed _ (.inr (.inr (.inr (.inl rfl)))), h.a2]
  have hfr : ∀ x, 64 ≤ (x - (b.reg .sp + BitVec.ofInt 64 (-64))).toNat → s1.mem x = s.mem x := by
    intro x hx; exact r.frame x (by rw [h.sp]; exact hx)
  have hst : ∀ j < 5, ld 32 s1.mem (s1.reg .a0 + BitVec.ofNat 64 (4 * j)) =
      ((blocksAt 64 b.mem (b.reg .a1) k).foldl Spec.Sha1.compress v).get j := by
    intro j hj
    rw [f0, ld_frame hfr p.d0s (by omega) (by omega), h.state j hj]
  have hv1 : Loong.view 0 s1 = Spec.Sha1.rounds
      (W (bytesAt b.mem (b.reg .a1 + BitVec.ofNat 64 (64 * k)) 64)) 80 ((blocksAt 64 b.mem (b.reg .a1) k).foldl Spec.Sha1.compress v) := by
    rw [← h.view]; exact r.view
  have hC : ((blocksAt 64 b.mem (b.reg .a1) k).foldl Spec.Sha1.compress v).zip (· + ·) (Loong.view 0 s1) =
      (blocksAt 64 b.mem (b.reg .a1) (k + 1)).foldl Spec.Sha1.compress v := by
    rw [blocksAt_succ, List.foldl_append, hv1]; rfl
  have hmem := update_mem s1 _ hst
  rw [hC, f0] at hmem
  constructor
  · rw [run_keeps rfl, fsp]
  · rw [run_keeps rfl, f0]
  · intro q; rw [run_keeps (by unfold kq; split <;> rfl), r.fixed _ (kq_fixed q), h.ks]
  · have : (run update s1).reg .a1 = s1.reg .a1 + BitVec.ofInt 64 64 := by unfold update; loong
    rw [this, f1, show BitVec.ofInt 64 64 = BitVec.ofNat 64 64 from rfl, add_add, Nat.mul_succ]
  · have : (run update s1).reg .a2 = s1.reg .a2 + BitVec.ofInt 64 (-1) := by unfold update; loong
    rw [this, f2, dec_ofNat hk (by omega)]
  · rw [update_view _ _ hst, hC]
  · intro j hj
    rw [hmem]
    exact ld_stWords _ _ _ hj (by decide) (by decide)
  · intro x hx hx'
    rw [hmem, stWords_frame _ _ _ (by decide) (by decide) hx, hfr x hx']
    exact h.frame x hx hx'

/-- The assembly of `compress` for at least one block: it ends, the chaining value has absorbed all blocks, the stack pointer
and the input registers are as before, and no other memory has changed. -/
theorem asm_eq {s : St} {v : V5 W32} {n fuel : Nat} (p : Pre s v n) (hn : 0 < n) (hf : n ≤ fuel) :
    ∃ s', asm fuel s = some s' ∧
      (∀ j < 5, ld 32 s'.mem (s.reg .a0 + BitVec.ofNat 64 (4 * j)) =
        ((blocksAt 64 s.mem (s.reg .a1) n).foldl Spec.Sha1.compress v).get j) ∧
      s'.reg .sp = s.reg .sp ∧ s'.reg .a0 = s.reg .a0 ∧ (∀ q, s'.reg (kq q) = s.reg (kq q)) ∧
      Frame2 s'.mem s.mem (s.reg .a0) 20 (s.reg .sp + BitVec.ofInt 64 (-64)) 64 := by
  have hlen := p.len
  have h0 : BInv s v n 0 (run prologue s) := by
    have hm : (run prologue s).mem = s.mem := run_pure rfl s
    refine ⟨?_, run_keeps rfl s, fun q => run_keeps (by unfold kq; split <;> rfl) s, ?_, ?_, prologue_view s v p.state, ?_, ?_⟩
    · unfold prologue; loong
    · rw [run_keeps rfl, Nat.mul_zero, BitVec.add_zero]
    · rw [run_keeps rfl, p.cnt]; rfl
    · rw [hm]; exact p.state
    · rw [hm]; exact fun _ _ _ => rfl
  obtain ⟨s1, e, h⟩ := loop_inv (body := body) (r := .a2) (BInv s v n) hn (by omega) (fun k t _ h => h.a2)
    (fun k t hk h => block_step p hk h) h0 hf
  refine ⟨run epilogue s1, by rw [asm, e]; rfl, ?_, ?_, ?_, ?_, ?_⟩
  · rw [run_pure rfl]; exact h.state
  · have : (run epilogue s1).reg .sp = s1.reg .sp + BitVec.ofInt 64 64 := by unfold epilogue; loong
    rw [this, h.sp, BitVec.add_assoc, show BitVec.ofInt 64 (-64) + BitVec.ofInt 64 64 = 0#64 by decide, BitVec.add_zero]
  · rw [run_keeps rfl, h.a0]
  · intro q; rw [run_keeps (by unfold kq; split <;> rfl), h.ks]
  · rw [run_pure rfl]; exact h.frame

end Hashes.Sha1.Loong
