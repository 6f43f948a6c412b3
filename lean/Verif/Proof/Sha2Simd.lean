import Verif.Model.Sha2Simd
import Verif.Proof.X86
import Verif.Proof.Sha256
import Verif.Proof.Sha512
/- The backends of Model/Sha2Simd: the common loops. -/
namespace Hashes.Sha2Simd
open Simd Spec

theorem shaRound_eq {w : Nat} (S0 S1 : BitVec w → BitVec w) (s : V8 (BitVec w)) (W K : BitVec w) :
    shaRound S0 S1 s (W + K) = round2 S0 S1 K W s := by
  unfold shaRound round2
  simp only [ch_alt]
  have hm : (s.x0 &&& s.x1) ^^^ (s.x0 &&& s.x2) ^^^ (s.x1 &&& s.x2) = Maj s.x0 s.x1 s.x2 := rfl
  rw [hm]
  have ht : W + K + s.x7 + S1 s.x4 + Ch s.x4 s.x5 s.x6 = s.x7 + S1 s.x4 + Ch s.x4 s.x5 s.x6 + K + W := by ac_rfl
  rw [ht, BitVec.add_assoc _ (S0 s.x0)]

theorem word_eq (w L : Nat) {n : Nat} (ms : Arr 128 n) {l : Nat} (j : Nat) (hl : l < L) :
    word w L ms (L * j + l) = lane w l (ms.get j) := by
  rw [word, Nat.mul_add_mod, Nat.mod_eq_of_lt hl, Nat.mul_add_div (by omega), Nat.div_eq_of_lt hl, Nat.add_zero]

/-- Everything a run over one block refers to: schedule `W`, register `G r` of the sums `W + K` of words `L r ..`, and the
message registers `xs p` before step `p`. -/
structure Data (w : Nat) (X : Type) where
  W : Nat → BitVec w
  Kf : Nat → BitVec w
  G : Nat → V128
  xs : Nat → X

variable {w : Nat} {X : Type}

structure Sound (o : Ops w X) (D : Data w X) : Prop where
  hL : o.L = 2 ∨ o.L = 4
  lanes : ∀ r < 16 / o.L * (o.groups + 1), ∀ l < o.L, lane w l (D.G r) = D.W (o.L * r + l) + D.Kf (o.L * r + l)
  update : ∀ p < 16 / o.L * o.groups, o.update (D.xs p) (ldK o.K (o.L * (p + 16 / o.L))) = (D.xs (p + 1), D.G (p + 16 / o.L))

/-- The state after `n` rounds. -/
def R (S0 S1 : BitVec w → BitVec w) (D : Data w X) (s : V8 (BitVec w)) (n : Nat) : V8 (BitVec w) :=
  rounds2 S0 S1 D.Kf D.W n s

theorem roundsReg_eq (S0 S1 : BitVec w → BitVec w) (D : Data w X) (L : Nat) {n : Nat} (ms : Arr 128 n) (j r : Nat)
    (s : V8 (BitVec w)) (h : ms.get j = D.G r) (hl : ∀ l < L, lane w l (D.G r) = D.W (L * r + l) + D.Kf (L * r + l)) :
    roundsReg S0 S1 L ms j (R S0 S1 D s (L * r)) = R S0 S1 D s (L * (r + 1)) := by
  have key : ∀ m ≤ L, (List.range m).foldl (fun s l => shaRound S0 S1 s (word w L ms (L * j + l)))
      (R S0 S1 D s (L * r)) = R S0 S1 D s (L * r + m) := by
    intro m
    induction m with
    | zero => intro _; rfl
    | succ m ih =>
      intro hm
      rw [List.range_succ (n := m), List.foldl_append, ih (by omega), List.foldl_cons, List.foldl_nil, word_eq _ _ _ _ (by omega), h,
        hl m (by omega), shaRound_eq]
      rfl
  rw [roundsReg, key L (Nat.le_refl _), Nat.mul_succ]

/-- The invariant of the loops, before step `p`. -/
structure Inv (o : Ops w X) (D : Data w X) (s0 : V8 (BitVec w)) (p : Nat) (v : St w o.L X) : Prop where
  s : v.s = R o.S0 o.S1 D s0 (o.L * p)
  x : v.x = D.xs p
  ms : ∀ r, p ≤ r → r < p + 16 / o.L → v.ms.get (r % (16 / o.L)) = D.G r
  idx : v.idx = o.L * (p + 16 / o.L)

theorem body_inv {o : Ops w X} {D : Data w X} (S : Sound o D) {s0 : V8 (BitVec w)} {i j : Nat} {v : St w o.L X}
    (hi : i < o.groups) (hj : j < 16 / o.L) (h : Inv o D s0 (16 / o.L * i + j) v) :
    Inv o D s0 (16 / o.L * i + j + 1) (body o v j) := by
  have hn : 0 < 16 / o.L := by omega
  have hp : 16 / o.L * i + j < 16 / o.L * o.groups :=
    calc 16 / o.L * i + j < 16 / o.L * (i + 1) := by rw [Nat.mul_succ]; omega
      _ ≤ _ := Nat.mul_le_mul_left _ hi
  have hm : (16 / o.L * i + j) % (16 / o.L) = j := by rw [Nat.mul_add_mod, Nat.mod_eq_of_lt hj]
  generalize 16 / o.L * i + j = p at *
  have hu := S.update p hp
  refine ⟨?_, ?_, ?_, ?_⟩
  · have h1 := h.ms p (Nat.le_refl _) (by omega)
    rw [hm] at h1
    show roundsReg o.S0 o.S1 o.L v.ms j v.s = _
    rw [h.s]
    exact roundsReg_eq _ _ D _ _ _ _ _ h1 (S.lanes p (by rw [Nat.mul_succ]; omega))
  · show (o.update v.x (ldK o.K v.idx)).1 = _
    rw [h.x, h.idx, hu]
  · intro r h1 h2
    show (v.ms.set j (o.update v.x (ldK o.K v.idx)).2).get _ = _
    rw [h.x, h.idx, hu, Arr.get_set _ _ _ _ hj]
    by_cases hr : r = p + 16 / o.L
    · rw [if_pos (by rw [hr, Nat.add_mod_right, hm]), hr]
    · rw [if_neg, h.ms r (by omega) (by omega)]
      intro e
      rw [← hm] at e
      have h3 := Nat.sub_mod_eq_zero_of_mod_eq e.symm
      rw [Nat.mod_eq_of_lt (by omega)] at h3
      omega
  · show v.idx + o.L = _
    rw [h.idx, ← Nat.mul_succ]
    congr 1; omega

theorem inner_inv {o : Ops w X} {D : Data w X} (S : Sound o D) {s0 : V8 (BitVec w)} {i : Nat} {v : St w o.L X}
    (hi : i < o.groups) (h : Inv o D s0 (16 / o.L * i) v) :
    ∀ m ≤ 16 / o.L, Inv o D s0 (16 / o.L * i + m) ((List.range m).foldl (body o) v) := by
  intro m
  induction m with
  | zero => intro _; exact h
  | succ m ih =>
    intro hm
    rw [List.range_succ (n := m), List.foldl_append, List.foldl_cons, List.foldl_nil]
    exact body_inv S hi (by omega) (ih (by omega))

theorem mainLoop_inv {o : Ops w X} {D : Data w X} (S : Sound o D) {s0 : V8 (BitVec w)} {v : St w o.L X}
    (h : Inv o D s0 0 v) : Inv o D s0 (16 / o.L * o.groups) (mainLoop o v) := by
  have key : ∀ g ≤ o.groups, Inv o D s0 (16 / o.L * g)
      ((List.range g).foldl (fun v _ => (List.range (16 / o.L)).foldl (body o) v) v) := by
    intro g
    induction g with
    | zero => intro _; exact h
    | succ g ih =>
      intro hg
      rw [List.range_succ (n := g), List.foldl_append, List.foldl_cons, List.foldl_nil, Nat.mul_succ]
      exact inner_inv S (by omega) (ih (by omega)) _ (Nat.le_refl _)
  exact key _ (Nat.le_refl _)

/-- A plain loop of rounds over registers of `W + K`. -/
theorem loop_eq (S0 S1 : BitVec w → BitVec w) (D : Data w X) (L : Nat) (hL : 0 < L) {n : Nat} (ms : Arr 128 n) (s : V8 (BitVec w))
    (r0 N : Nat) (h : ∀ j, L * j < N → ms.get j = D.G (r0 + j))
    (hl : ∀ j, L * j < N → ∀ l < L, lane w l (D.G (r0 + j)) = D.W (L * (r0 + j) + l) + D.Kf (L * (r0 + j) + l)) :
    (List.range N).foldl (fun s i => shaRound S0 S1 s (word w L ms i)) (R S0 S1 D s (L * r0)) = R S0 S1 D s (L * r0 + N) := by
  have key : ∀ m ≤ N, (List.range m).foldl (fun s i => shaRound S0 S1 s (word w L ms i)) (R S0 S1 D s (L * r0)) =
      R S0 S1 D s (L * r0 + m) := by
    intro m
    induction m with
    | zero => intro _; rfl
    | succ m ih =>
      intro hm
      rw [List.range_succ (n := m), List.foldl_append, ih (by omega), List.foldl_cons, List.foldl_nil]
      have e : m = L * (m / L) + m % L := (Nat.div_add_mod m L).symm
      have hlt : m % L < L := Nat.mod_lt _ hL
      have hle : L * (m / L) < N := by omega
      have hw : word w L ms m = D.W (L * r0 + m) + D.Kf (L * r0 + m) := by
        rw [word, h _ hle, hl _ hle _ hlt, Nat.mul_add, Nat.add_assoc, ← e]
      rw [hw, shaRound_eq]
      rfl
  exact key N (Nat.le_refl _)

theorem blockWith_eq {o : Ops w X} {D : Data w X} (S : Sound o D) (s0 : V8 (BitVec w)) (ms : Arr 128 (16 / o.L))
    (hms : ∀ r < 16 / o.L, ms.get r = D.G r) :
    blockWith o s0 (D.xs 0) ms = s0.zip (· + ·) (R o.S0 o.S1 D s0 (16 * (o.groups + 1))) := by
  have hLn : o.L * (16 / o.L) = 16 := by rcases S.hL with h | h <;> rw [h]
  have hn : 0 < 16 / o.L := by rcases S.hL with h | h <;> rw [h] <;> decide
  have h0 : Inv o D s0 0 { s := s0, x := D.xs 0, ms := ms, idx := 16 } :=
    ⟨rfl, rfl, fun r _ h => by rw [Nat.mod_eq_of_lt (by omega)]; exact hms r (by omega), by simp [hLn]⟩
  have h1 := mainLoop_inv S h0
  rw [blockWith]
  generalize mainLoop o { s := s0, x := D.xs 0, ms := ms, idx := 16 } = v at h1 ⊢
  have hlt : ∀ j, o.L * j < 16 → j < 16 / o.L := by
    intro j hj; rw [← hLn] at hj; exact Nat.lt_of_mul_lt_mul_left hj
  have h2 := loop_eq o.S0 o.S1 D o.L (by rcases S.hL with h | h <;> omega) v.ms s0 (16 / o.L * o.groups) 16
    (fun j hj => by
      have := h1.ms (16 / o.L * o.groups + j) (by omega) (by have := hlt j hj; omega)
      rwa [Nat.mul_add_mod, Nat.mod_eq_of_lt (hlt j hj)] at this)
    (fun j hj => S.lanes _ (by have := hlt j hj; rw [Nat.mul_succ]; omega))
  rw [← h1.s] at h2
  show accumulate s0 (lastLoop o.S0 o.S1 o.L v.ms v.s) = _
  rw [lastLoop, h2, ← Nat.mul_assoc, hLn, accumulate, Nat.mul_succ]

end Hashes.Sha2Simd
