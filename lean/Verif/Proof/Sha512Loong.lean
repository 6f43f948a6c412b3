import Verif.Model.Sha512Loong
import Verif.Proof.Loong
import Verif.Proof.Sha512
/- SHA-512, LoongArch assembly. -/
namespace Hashes.Sha512.Loong
open Hashes.Loong Spec

/-- The registers that hold the working variables. -/
def tr : Nat → Reg
  | 0 => .t0 | 1 => .t1 | 2 => .t2 | 3 => .t3 | 4 => .t4 | 5 => .t5 | 6 => .t6 | _ => .t7

/-- The register of working variable `k` (0 is `a`) when the variables are rotated by `c`. -/
def rg (c k : Nat) : Reg := tr ((k + c) % 8)

/-- The working variables. -/
def view (c : Nat) (s : St) : V8 W64 := V8.ofFn fun k => (s.reg (rg c k))

theorem maj_or (a b c : W64) : ((c ||| b) &&& a) ||| (c &&& b) = Maj a b c := by
  apply BitVec.eq_of_getLsbD_eq
  intro k _
  simp only [Maj, BitVec.getLsbD_or, BitVec.getLsbD_and, BitVec.getLsbD_xor]
  cases a.getLsbD k <;> cases b.getLsbD k <;> cases c.getLsbD k <;> rfl

/-- The registers that a round does not change. -/
def Fixed (x : Reg) : Prop := x = .sp ∨ x = .a0 ∨ x = .a1 ∨ x = .a2 ∨ x = .a3

theorem S1_perm (x : W64) : x.rotateRight 14 ^^^ (x.rotateRight 18 ^^^ x.rotateRight 41) = Spec.Sha512.S1 x := by
  rw [Spec.Sha512.S1, BitVec.xor_assoc]
theorem S0_perm (x : W64) : x.rotateRight 28 ^^^ (x.rotateRight 39 ^^^ x.rotateRight 34) = Spec.Sha512.S0 x := by
  rw [Spec.Sha512.S0, BitVec.xor_assoc, BitVec.xor_comm (x.rotateRight 39)]
theorem ch_perm (e f g : W64) : ((g ^^^ f) &&& e) ^^^ g = Ch e f g := by
  rw [← ch_alt, BitVec.and_comm, BitVec.xor_comm, BitVec.xor_comm g f]

theorem tail_view (c : Nat) (hc : c < 8) (i : Nat) (s : St) :
    view (c + 7) (run (roundtail i (rg c 0) (rg c 1) (rg c 2) (rg c 3) (rg c 4) (rg c 5) (rg c 6) (rg c 7)) s) =
      round2 Spec.Sha512.S0 Spec.Sha512.S1 (ld 64 s.mem (s.reg .a3 + BitVec.ofNat 64 (i * 8))) ((s.reg .a5)) (view c s) := by
  have hadd : ∀ h w x c k : W64, h + w + (x + c + k) = h + x + c + k + w := by intros; ac_rfl
  rcases c with _ | _ | _ | _ | _ | _ | _ | _ | c
  case succ.succ.succ.succ.succ.succ.succ.succ => omega
  all_goals
    simp only [view, V8.ofFn, rg, tr, Nat.reduceAdd, Nat.reduceMod, Nat.zero_add, Nat.add_zero, roundtail]
    loong
    simp only [round2, S1_perm, S0_perm, ch_perm, maj_or, hadd]
    simp only [BitVec.add_assoc]

theorem tail_fixed (c : Nat) (hc : c < 8) (i : Nat) (s : St) (x : Reg) (hx : Fixed x) :
    (run (roundtail i (rg c 0) (rg c 1) (rg c 2) (rg c 3) (rg c 4) (rg c 5) (rg c 6) (rg c 7)) s).reg x = s.reg x := by
  rcases c with _ | _ | _ | _ | _ | _ | _ | _ | c
  case succ.succ.succ.succ.succ.succ.succ.succ => omega
  all_goals
    rcases hx with rfl | rfl | rfl | rfl | rfl <;> exact run_keeps rfl s

theorem tail_mem (c : Nat) (hc : c < 8) (i : Nat) (s : St) :
    (run (roundtail i (rg c 0) (rg c 1) (rg c 2) (rg c 3) (rg c 4) (rg c 5) (rg c 6) (rg c 7)) s).mem =
      st s.mem (s.reg .sp + BitVec.ofNat 64 ((i &&& 0xF) * 8)) ((s.reg .a5)) := by
  rcases c with _ | _ | _ | _ | _ | _ | _ | _ | c
  case succ.succ.succ.succ.succ.succ.succ.succ => omega
  all_goals
    simp only [rg, tr, Nat.reduceAdd, Nat.reduceMod, Nat.zero_add, Nat.add_zero, roundtail]
    loong

theorem view_congr {c c' : Nat} (h : c % 8 = c' % 8) (s : St) : view c s = view c' s := by
  have : ∀ k, (k + c) % 8 = (k + c') % 8 := by omega
  simp only [view, rg, this]

/-! ### Message words -/

/-- The load of a message word, `rounda!` without `roundtail!`. -/
def loadW (i : Nat) : List Instr := [.ldd .a5 .a1 (i * 8), .revbd .a5 .a5]

/-- The message expansion, `roundb!` without `roundtail!`. -/
def expandW (i : Nat) : List Instr :=
  [.ldd .a4 .sp (((i - 15) &&& 0xF) * 8),
    .ldd .a5 .sp (((i - 16) &&& 0xF) * 8),
    .ldd .a6 .sp (((i - 7) &&& 0xF) * 8),
    .addd .a5 .a5 .a6,
    .rotrid .a6 .a4 8,
    .srlid .a7 .a4 7,
    .rotrid .a4 .a4 1,
    .xor .a6 .a6 .a7,
    .xor .a4 .a4 .a6,
    .addd .a5 .a5 .a4,
    .ldd .a4 .sp (((i - 2) &&& 0xF) * 8),
    .rotrid .a6 .a4 61,
    .srlid .a7 .a4 6,
    .rotrid .a4 .a4 19,
    .xor .a6 .a6 .a7,
    .xor .a4 .a4 .a6,
    .addd .a5 .a5 .a4]

/-- The head of round `i`. -/
def head (i : Nat) : List Instr := if i < 16 then loadW i else expandW i

/-- Round `i`. -/
def rnd (i : Nat) : List Instr :=
  head i ++ roundtail i (rg (7 * i % 8) 0) (rg (7 * i % 8) 1) (rg (7 * i % 8) 2) (rg (7 * i % 8) 3) (rg (7 * i % 8) 4) (rg (7 * i % 8) 5)
    (rg (7 * i % 8) 6) (rg (7 * i % 8) 7)

theorem rounds_eq : rounds = (List.range 80).map rnd := by rfl

theorem loadW_a5 (i : Nat) (s : St) :
    ((run (loadW i) s).reg .a5) = revb64 (ld 64 s.mem (s.reg .a1 + BitVec.ofNat 64 (i * 8))) := by
  unfold loadW; loong

theorem expandW_a5 (i : Nat) (s : St) :
    ((run (expandW i) s).reg .a5) =
      ld 64 s.mem (s.reg .sp + BitVec.ofNat 64 (((i - 16) &&& 0xF) * 8)) + ld 64 s.mem (s.reg .sp + BitVec.ofNat 64 (((i - 7) &&& 0xF) * 8)) +
        Spec.Sha512.s0 (ld 64 s.mem (s.reg .sp + BitVec.ofNat 64 (((i - 15) &&& 0xF) * 8))) +
        Spec.Sha512.s1 (ld 64 s.mem (s.reg .sp + BitVec.ofNat 64 (((i - 2) &&& 0xF) * 8))) := by
  unfold expandW; loong
  simp only [Spec.Sha512.s0, Spec.Sha512.s1, BitVec.xor_assoc]

theorem head_keeps (i : Nat) (s : St) (x : Reg) (h4 : x ≠ .a4) (h5 : x ≠ .a5) (h6 : x ≠ .a6) (h7 : x ≠ .a7) :
    (run (head i) s).reg x = s.reg x := by
  apply run_keeps
  unfold head
  split
  · cases x <;> first | rfl | contradiction
  · cases x <;> first | rfl | contradiction

theorem head_mem (i : Nat) (s : St) : (run (head i) s).mem = s.mem := by
  apply run_pure
  unfold head
  split <;> rfl

theorem head_view (c i : Nat) (s : St) : view c (run (head i) s) = view c s := by
  have : ∀ k, (run (head i) s).reg (rg c k) = s.reg (rg c k) := by
    intro k
    apply head_keeps <;> (rw [rg]; unfold tr; split <;> exact Reg.noConfusion)
  simp only [view, this]

/-! ### One block -/

/-- What holds after `i` rounds on a block that started in the machine state `b` with the chaining value `v`. -/
structure RInv (b : St) (v : V8 W64) (blk : Bytes) (i : Nat) (s : St) : Prop where
  fixed : ∀ x, Fixed x → s.reg x = b.reg x
  view : view (7 * i % 8) s = rounds2 Spec.Sha512.S0 Spec.Sha512.S1 Spec.Sha512.K (W blk) i v
  win : ∀ j < i, i ≤ j + 16 → ld 64 s.mem (b.reg .sp + BitVec.ofNat 64 (8 * (j % 16))) = W blk j
  frame : ∀ x, 128 ≤ (x - b.reg .sp).toNat → s.mem x = b.mem x

theorem round_step {b : St} {v : V8 W64} {i : Nat} {s : St} (hi : i < 80)
    (hK : ∀ i < 80, ld 64 b.mem (b.reg .a3 + BitVec.ofNat 64 (8 * i)) = Spec.Sha512.K i)
    (hd3 : Disj (b.reg .a3) 640 (b.reg .sp) 128) (hd1 : Disj (b.reg .a1) 128 (b.reg .sp) 128)
    (h : RInv b v (bytesAt b.mem (b.reg .a1) 128) i s) : RInv b v (bytesAt b.mem (b.reg .a1) 128) (i + 1) (run (rnd i) s) := by
  have hsp : s.reg .sp = b.reg .sp := h.fixed _ (.inl rfl)
  have ha1 : s.reg .a1 = b.reg .a1 := h.fixed _ (.inr (.inr (.inl rfl)))
  have ha3 : s.reg .a3 = b.reg .a3 := h.fixed _ (.inr (.inr (.inr (.inr rfl))))
  have hb : ((run (head i) s).reg .a5) = W (bytesAt b.mem (b.reg .a1) 128) i := by
    unfold head
    split
    · rename_i h16
      have : bytesAt s.mem (b.reg .a1 + BitVec.ofNat 64 0) 128 = bytesAt b.mem (b.reg .a1 + BitVec.ofNat 64 0) 128 :=
        bytesAt_frame h.frame hd1 (by omega) (by omega)
      rw [BitVec.add_zero] at this
      rw [loadW_a5, ha1, Nat.mul_comm, swap64 _ _ 128 i (by omega), this, W_lt _ h16]
    · obtain ⟨t, rfl⟩ : ∃ t, i = t + 16 := ⟨i - 16, by omega⟩
      have e0 := h.win t (by omega) (by omega)
      have e1 := h.win (t + 1) (by omega) (by omega)
      have e9 := h.win (t + 9) (by omega) (by omega)
      have e14 := h.win (t + 14) (by omega) (by omega)
      rw [expandW_a5, hsp, and15, and15, and15, and15, Nat.mul_comm _ 8, Nat.mul_comm _ 8, Nat.mul_comm _ 8, Nat.mul_comm _ 8,
        show t + 16 - 16 = t by omega, show t + 16 - 15 = t + 1 by omega, show t + 16 - 7 = t + 9 by omega,
        show t + 16 - 2 = t + 14 by omega, e0, e1, e9, e14, W_ge _ (by omega)]
      ac_rfl
  have hc : 7 * i % 8 < 8 := Nat.mod_lt _ (by decide)
  have hk : ∀ x, Fixed x → (run (head i) s).reg x = b.reg x := by
    intro x hx
    rw [← h.fixed x hx]
    rcases hx with rfl | rfl | rfl | rfl | rfl <;> (apply head_keeps <;> exact Reg.noConfusion)
  have hmem : (run (rnd i) s).mem = st s.mem (b.reg .sp + BitVec.ofNat 64 (8 * (i % 16))) (W (bytesAt b.mem (b.reg .a1) 128) i) := by
    rw [rnd, run_append, tail_mem _ hc, head_mem, hb, hk _ (.inl rfl), and15, Nat.mul_comm]
  constructor
  · intro x hx
    rw [rnd, run_append, tail_fixed _ hc _ _ _ hx, hk x hx]
  · rw [rnd, run_append, view_congr (c' := 7 * i % 8 + 7) (by omega), tail_view _ hc, head_view, h.view, hb, head_mem, hk _ (.inr (.inr (.inr (.inr rfl)))),
      Nat.mul_comm, ld_frame h.frame hd3 (by omega) (by omega), hK i hi]
    rfl
  · intro j hj hj'
    rw [hmem]
    by_cases e : j = i
    · subst e
      exact ld_st_self _ _ _ (by decide) (by decide)
    · rw [ld_st_ne _ _ _ _ _ (by omega) (by omega) (by decide) (by omega)]
      exact h.win j (by omega) (by omega)
  · intro x hx
    rw [hmem, st_frame _ _ 128 _ _ (by decide) (by omega) (by decide) hx]
    exact h.frame x hx

theorem rounds_inv {b : St} {v : V8 W64} (hv : view 0 b = v)
    (hK : ∀ i < 80, ld 64 b.mem (b.reg .a3 + BitVec.ofNat 64 (8 * i)) = Spec.Sha512.K i)
    (hd3 : Disj (b.reg .a3) 640 (b.reg .sp) 128) (hd1 : Disj (b.reg .a1) 128 (b.reg .sp) 128) :
    RInv b v (bytesAt b.mem (b.reg .a1) 128) 80 (run rounds.flatten b) := by
  rw [rounds_eq]
  apply run_flatten rnd
  · intro i s hi h
    exact round_step hi hK hd3 hd1 h
  · exact ⟨fun _ _ => rfl, hv, fun _ h => by omega, fun _ _ => rfl⟩

/-- The addition of the chaining value kept in memory. -/
theorem update_view (s : St) (v : V8 W64) (hm : ∀ k < 8, ld 64 s.mem (s.reg .a0 + BitVec.ofNat 64 (8 * k)) = v.get k) :
    view 0 (run update s) = v.zip (· + ·) (view 0 s) := by
  have h0 := hm 0 (by decide); have h1 := hm 1 (by decide); have h2 := hm 2 (by decide); have h3 := hm 3 (by decide)
  have h4 := hm 4 (by decide); have h5 := hm 5 (by decide); have h6 := hm 6 (by decide); have h7 := hm 7 (by decide)
  simp only [Nat.reduceMul] at h0 h1 h2 h3 h4 h5 h6 h7
  obtain ⟨v0, v1, v2, v3, v4, v5, v6, v7⟩ := v
  simp only [V8.get0, V8.get1, V8.get2, V8.get3, V8.get4, V8.get5, V8.get6, V8.get7] at h0 h1 h2 h3 h4 h5 h6 h7
  simp only [view, V8.ofFn, V8.zip, rg, tr, Nat.reduceAdd, Nat.reduceMod, Nat.add_zero, Nat.zero_mod, update]
  loong
  simp only [h0, h1, h2, h3, h4, h5, h6, h7]
  simp only [BitVec.add_comm]

theorem update_mem (s : St) (v : V8 W64) (hm : ∀ k < 8, ld 64 s.mem (s.reg .a0 + BitVec.ofNat 64 (8 * k)) = v.get k) :
    (run update s).mem = stWords s.mem (s.reg .a0) (v.zip (· + ·) (view 0 s)).get 8 := by
  have h0 := hm 0 (by decide); have h1 := hm 1 (by decide); have h2 := hm 2 (by decide); have h3 := hm 3 (by decide)
  have h4 := hm 4 (by decide); have h5 := hm 5 (by decide); have h6 := hm 6 (by decide); have h7 := hm 7 (by decide)
  simp only [Nat.reduceMul] at h0 h1 h2 h3 h4 h5 h6 h7
  obtain ⟨v0, v1, v2, v3, v4, v5, v6, v7⟩ := v
  simp only [V8.get0, V8.get1, V8.get2, V8.get3, V8.get4, V8.get5, V8.get6, V8.get7] at h0 h1 h2 h3 h4 h5 h6 h7
  simp only [view, V8.ofFn, V8.zip, rg, tr, Nat.reduceAdd, Nat.reduceMod, Nat.add_zero, Nat.zero_mod, update]
  loong
  simp only [stWords, h0, h1, h2, h3, h4, h5, h6, h7, V8.get0, V8.get1, V8.get2, V8.get3, V8.get4, V8.get5, V8.get6, V8.get7, Nat.reduceMul,
    Nat.reduceDiv, Nat.mul_zero]
  simp only [BitVec.add_comm]

theorem prologue_view (s : St) (v : V8 W64) (hm : ∀ k < 8, ld 64 s.mem (s.reg .a0 + BitVec.ofNat 64 (8 * k)) = v.get k) :
    view 0 (run prologue s) = v := by
  have h0 := hm 0 (by decide); have h1 := hm 1 (by decide); have h2 := hm 2 (by decide); have h3 := hm 3 (by decide)
  have h4 := hm 4 (by decide); have h5 := hm 5 (by decide); have h6 := hm 6 (by decide); have h7 := hm 7 (by decide)
  simp only [Nat.reduceMul] at h0 h1 h2 h3 h4 h5 h6 h7
  obtain ⟨v0, v1, v2, v3, v4, v5, v6, v7⟩ := v
  simp only [V8.get0, V8.get1, V8.get2, V8.get3, V8.get4, V8.get5, V8.get6, V8.get7] at h0 h1 h2 h3 h4 h5 h6 h7
  simp only [view, V8.ofFn, rg, tr, Nat.reduceAdd, Nat.reduceMod, Nat.add_zero, Nat.zero_mod, prologue]
  loong
  simp only [h0, h1, h2, h3, h4, h5, h6, h7]

/-! ### All blocks -/

/-- What the caller provides: the chaining value at `a0`, `n` blocks at `a1`, the round constants at `a3`, 128 bytes below
the stack pointer that no other area reaches, and a chaining value disjoint from blocks and constants. -/
structure Pre (s : St) (v : V8 W64) (n : Nat) : Prop where
  cnt : s.reg .a2 = BitVec.ofNat 64 n
  len : 128 * n < 2 ^ 64
  state : ∀ k < 8, ld 64 s.mem (s.reg .a0 + BitVec.ofNat 64 (8 * k)) = v.get k
  consts : ∀ i < 80, ld 64 s.mem (s.reg .a3 + BitVec.ofNat 64 (8 * i)) = k64 i
  d30 : Disj (s.reg .a3) 640 (s.reg .a0) 64
  d3s : Disj (s.reg .a3) 640 (s.reg .sp + BitVec.ofInt 64 (-128)) 128
  d10 : Disj (s.reg .a1) (128 * n) (s.reg .a0) 64
  d1s : Disj (s.reg .a1) (128 * n) (s.reg .sp + BitVec.ofInt 64 (-128)) 128
  d0s : Disj (s.reg .a0) 64 (s.reg .sp + BitVec.ofInt 64 (-128)) 128

/-- What holds after `k` blocks. -/
structure BInv (b : St) (v : V8 W64) (n k : Nat) (s : St) : Prop where
  sp : s.reg .sp = b.reg .sp + BitVec.ofInt 64 (-128)
  a0 : s.reg .a0 = b.reg .a0
  a3 : s.reg .a3 = b.reg .a3
  a1 : s.reg .a1 = b.reg .a1 + BitVec.ofNat 64 (128 * k)
  a2 : s.reg .a2 = BitVec.ofNat 64 (n - k)
  view : view 0 s = (blocksAt 128 b.mem (b.reg .a1) k).foldl Spec.Sha512.compress v
  state : ∀ j < 8, ld 64 s.mem (b.reg .a0 + BitVec.ofNat 64 (8 * j)) = ((blocksAt 128 b.mem (b.reg .a1) k).foldl Spec.Sha512.compress v).get j
  frame : Frame2 s.mem b.mem (b.reg .a0) 64 (b.reg .sp + BitVec.ofInt 64 (-128)) 128

theorem block_step {b : St} {v : V8 W64} {n k : Nat} {s : St} (p : Pre b v n) (hk : k < n) (h : BInv b v n k s) :
    BInv b v n (k + 1) (run body s) := by
  have hlen := p.len
  have hmul : 128 * (k + 1) ≤ 128 * n := Nat.mul_le_mul_left _ hk
  have hblk : bytesAt s.mem (s.reg .a1) 128 = bytesAt b.mem (b.reg .a1 + BitVec.ofNat 64 (128 * k)) 128 := by
    rw [h.a1, bytesAt_frame2 h.frame p.d10 p.d1s (by omega) (by omega)]
  have r := rounds_inv (b := s) rfl
    (by intro i hi; rw [h.a3, ld_frame2 h.frame p.d30 p.d3s (by omega) (by omega), p.consts i hi, k64, Spec.Sha512.K, K_eq])
    (by rw [h.a3, h.sp]; exact p.d3s) (by rw [h.a1, h.sp]; exact p.d1s.sub (by omega) (by omega))
  rw [hblk] at r
  have hbody : run body s = run update (run rounds.flatten s) := by
    rw [body, run_append, run_append]; rfl
  rw [hbody]
  generalize hs1 : run rounds.flatten s = s1 at r
  have f0 : s1.reg .a0 = b.reg .a0 := by rw [r.fixed _ (.inr (.inl rfl)), h.a0]
  have fsp : s1.reg .sp = b.reg .sp + BitVec.ofInt 64 (-128) := by rw [r.fixed _ (.inl rfl), h.sp]
  have f1 : s1.reg .a1 = b.reg .a1 + BitVec.ofNat 64 (128 * k) := by rw [r.fixed _ (.inr (.inr (.inl rfl))), h.a1]
  have f2 : s1.reg .a2 = BitVec.ofNat 64 (n - k) := by rw [r.fixed _ (.inr (.inr (.inr (.inl rfl)))), h.a2]
  have f3 : s1.reg .a3 = b.reg .a3 := by rw [r.fixed _ (.inr (.inr (.inr (.inr rfl)))), h.a3]
  have hfr : ∀ x, 128 ≤ (x - (b.reg .sp + BitVec.ofInt 64 (-128))).toNat → s1.mem x = s.mem x := by
    intro x hx; exact r.frame x (by rw [h.sp]; exact hx)
  have hst : ∀ j < 8, ld 64 s1.mem (s1.reg .a0 + BitVec.ofNat 64 (8 * j)) =
      ((blocksAt 128 b.mem (b.reg .a1) k).foldl Spec.Sha512.compress v).get j := by
    intro j hj
    rw [f0, ld_frame hfr p.d0s (by omega) (by omega), h.state j hj]
  have hv1 : Loong.view 0 s1 = rounds2 Spec.Sha512.S0 Spec.Sha512.S1 Spec.Sha512.K
      (W (bytesAt b.mem (b.reg .a1 + BitVec.ofNat 64 (128 * k)) 128)) 80 ((blocksAt 128 b.mem (b.reg .a1) k).foldl Spec.Sha512.compress v) := by
    rw [← h.view]; exact r.view
  have hC : ((blocksAt 128 b.mem (b.reg .a1) k).foldl Spec.Sha512.compress v).zip (· + ·) (Loong.view 0 s1) =
      (blocksAt 128 b.mem (b.reg .a1) (k + 1)).foldl Spec.Sha512.compress v := by
    rw [blocksAt_succ, List.foldl_append, hv1]; rfl
  have hmem := update_mem s1 _ hst
  rw [hC, f0] at hmem
  constructor
  · rw [run_keeps rfl, fsp]
  · rw [run_keeps rfl, f0]
  · rw [run_keeps rfl, f3]
  · have : (run update s1).reg .a1 = s1.reg .a1 + BitVec.ofInt 64 128 := by unfold update; loong
    rw [this, f1, show BitVec.ofInt 64 128 = BitVec.ofNat 64 128 from rfl, add_add, Nat.mul_succ]
  · have : (run update s1).reg .a2 = s1.reg .a2 + BitVec.ofInt 64 (-1) := by unfold update; loong
    rw [this, f2, dec_ofNat hk (by omega)]
  · rw [update_view _ _ hst, hC]
  · intro j hj
    rw [hmem]
    exact ld_stWords _ _ _ hj (by decide) (by decide)
  · intro x hx hx'
    rw [hmem, stWords_frame _ _ _ (by decide) (by decide) hx, hfr x hx']
    exact h.frame x hx hx'

/-- The assembly of `compress` for at least one block: it ends, the chaining value has absorbed all blocks, the stack pointer
and the input registers are as before, and no other memory has changed. -/
theorem asm_eq {s : St} {v : V8 W64} {n fuel : Nat} (p : Pre s v n) (hn : 0 < n) (hf : n ≤ fuel) :
    ∃ s', asm fuel s = some s' ∧
      (∀ j < 8, ld 64 s'.mem (s.reg .a0 + BitVec.ofNat 64 (8 * j)) =
        ((blocksAt 128 s.mem (s.reg .a1) n).foldl Spec.Sha512.compress v).get j) ∧
      s'.reg .sp = s.reg .sp ∧ s'.reg .a0 = s.reg .a0 ∧ s'.reg .a3 = s.reg .a3 ∧
      Frame2 s'.mem s.mem (s.reg .a0) 64 (s.reg .sp + BitVec.ofInt 64 (-128)) 128 := by
  have hlen := p.len
  have h0 : BInv s v n 0 (run prologue s) := by
    have hm : (run prologue s).mem = s.mem := run_pure rfl s
    refine ⟨?_, run_keeps rfl s, run_keeps rfl s, ?_, ?_, prologue_view s v p.state, ?_, ?_⟩
    · unfold prologue; loong
    · rw [run_keeps rfl, Nat.mul_zero, BitVec.add_zero]
    · rw [run_keeps rfl, p.cnt]; rfl
    · rw [hm]; exact p.state
    · rw [hm]; exact fun _ _ _ => rfl
  obtain ⟨s1, e, h⟩ := loop_inv (body := body) (r := .a2) (BInv s v n) hn (by omega) (fun k t _ h => h.a2)
    (fun k t hk h => block_step p hk h) h0 hf
  refine ⟨run epilogue s1, by rw [asm, e]; rfl, ?_, ?_, ?_, ?_, ?_⟩
  · rw [run_pure rfl]; exact h.state
  · have : (run epilogue s1).reg .sp = s1.reg .sp + BitVec.ofInt 64 128 := by unfold epilogue; loong
    rw [this, h.sp, BitVec.add_assoc, show BitVec.ofInt 64 (-128) + BitVec.ofInt 64 128 = 0#64 by decide, BitVec.add_zero]
  · rw [run_keeps rfl, h.a0]
  · rw [run_keeps rfl, h.a3]
  · rw [run_pure rfl]; exact h.frame

end Hashes.Sha512.Loong
