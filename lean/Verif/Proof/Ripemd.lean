import Verif.Model.Ripemd
import Verif.Spec.Ripemd
import Verif.Proof.Md
import Verif.Proof.Words
/- Helper lemmas: the modelled RIPEMD functions equal the designers' definition. -/
namespace Hashes
namespace Ripemd

/-! ### Generic hasher -/

/-- Serialization laws of the chaining value array. -/
structure Mod.Laws {α : Type} (M : Mod α) : Prop where
  len : ∀ h, (M.toList h).length = M.n
  round : ∀ h, M.ofFn (fun i => (M.toList h).getD i 0) = h
  congr : ∀ f g, (∀ i < M.n, f i = g i) → M.ofFn f = M.ofFn g
  canon : ∀ f, M.toList (M.ofFn f) = (List.range M.n).map f

variable {α : Type} {M : Mod α}

theorem lawful : (core M).Lawful (fun _ => True) where
  bs_pos := by simp [core]
  nil := fun s => by simp [core, updateBlocks]
  app := fun s x y => by simp [core, updateBlocks, BitVec.ofNat_add, BitVec.add_assoc]
  inv_init := trivial
  inv_update := fun _ _ _ _ => trivial
  reset_eq := fun _ _ => rfl
  fin_congr := fun s b b' h h' hc => by
    simp only [core, finalize, BlockBuffer.len64PaddingLE] at *
    rw [pos_congr h h' hc, digestPad_congr (bs := 64) h h' hc (by simp)]

theorem serLawful (L : M.Laws) : (core M).SerLawful (fun _ => True) where
  bs_le := by simp [core]
  len := fun s _ => by simp [core, serialize, length_bytesOfWordsLE, L.len]; omega
  round := fun s _ => by
    simp only [core, serialize, deserialize]
    have hl : (bytesOfWordsLE (M.toList s.h)).length = 4 * M.n := by simp [length_bytesOfWordsLE, L.len]; omega
    rw [if_pos (by simp [hl]), List.drop_left' hl, counter_round (by decide)]
    rw [L.congr _ (fun i => (M.toList s.h).getD i 0), L.round]
    intro i hi
    exact wordLE_append (by decide) _ _ _ (by rw [L.len]; exact hi)

theorem deserLawful (L : M.Laws) : (core M).DeserLawful where
  canon := fun raw s h => by
    simp only [core, deserialize, serialize] at h ⊢
    split at h
    · rename_i hl
      injection h with h
      subst h
      rw [L.canon, bytesOfWordsLE_range (by decide) _ _ (by omega), counter_canon (by decide) (by simp [hl])]
      simp
      rw [Nat.mul_comm, List.take_append_drop]
    · cases h

theorem digest_eq {f : α → Bytes → α} (hf : ∀ h b, M.compress h b = f h b) (m : Bytes) :
    (core M).digest m = bytesOfWordsLE (M.toList ((chunks 64 (Spec.Ripemd.pad m)).foldl f M.H0)) := by
  obtain ⟨b, h1, h2, h3, h4⟩ := Core.digest_eager (lawful (M := M)) rfl m
  rw [h4]
  simp only [core] at h1 h2 h3 ⊢
  have hfe : M.compress = f := funext fun h => funext (hf h)
  simp only [finalize, updateBlocks, BlockBuffer.len64PaddingLE, length_blocks, h3, init, hfe]
  rw [show (64 : W64) = BitVec.ofNat 64 64 from rfl, bitLen_eq, leBytes_counter (by decide)]
  rw [Spec.Ripemd.pad, ← md_finalize (by decide) h1 (by simp) _ _ m h2]
  rfl

/-! ### Rounds: registers by role -/

theorem bf1_eq : bf1 = Spec.Ripemd.f 0 := rfl
theorem bf2_eq : bf2 = Spec.Ripemd.f 1 := rfl
theorem bf3_eq : bf3 = Spec.Ripemd.f 2 := rfl
theorem bf4_eq : bf4 = Spec.Ripemd.f 3 := rfl
theorem bf5_eq : bf5 = Spec.Ripemd.f 4 := rfl

/-- The registers A..E before step `j`. -/
def view5 (j : Nat) (v : V5 W32) : V5 W32 :=
  match j % 5 with
  | 0 => v
  | 1 => ⟨v.x4, v.x0, v.x1, v.x2, v.x3⟩
  | 2 => ⟨v.x3, v.x4, v.x0, v.x1, v.x2⟩
  | 3 => ⟨v.x2, v.x3, v.x4, v.x0, v.x1⟩
  | _ => ⟨v.x1, v.x2, v.x3, v.x4, v.x0⟩

/-- The table line of step `j`. -/
def line5 (j idx bits : Nat) : Step5 :=
  match j % 5 with
  | 0 => ⟨0, 1, 2, 3, 4, idx, bits⟩
  | 1 => ⟨4, 0, 1, 2, 3, idx, bits⟩
  | 2 => ⟨3, 4, 0, 1, 2, idx, bits⟩
  | 3 => ⟨2, 3, 4, 0, 1, idx, bits⟩
  | _ => ⟨1, 2, 3, 4, 0, idx, bits⟩

theorem round5_eq (w : Nat → W32) (k : W32) (f) (bb : V5 W32) (j i b : Nat) :
    view5 (j + 1) (round5 w k f bb (line5 j i b)) = Spec.Ripemd.step5 f k (w i) b (view5 j bb) := by
  have h : j % 5 = 0 ∨ j % 5 = 1 ∨ j % 5 = 2 ∨ j % 5 = 3 ∨ j % 5 = 4 := by omega
  unfold view5 line5
  rcases h with h | h | h | h | h
  · rw [h, show (j + 1) % 5 = 1 by omega]; rfl
  · rw [h, show (j + 1) % 5 = 2 by omega]; rfl
  · rw [h, show (j + 1) % 5 = 3 by omega]; rfl
  · rw [h, show (j + 1) % 5 = 4 by omega]; rfl
  · rw [h, show (j + 1) % 5 = 0 by omega]; rfl

theorem rounds5_eq (w : Nat → W32) (k : W32) (f) (idx bits : Nat → Nat) (j0 n : Nat) (bb : V5 W32) :
    view5 (j0 + n) (((List.range n).map fun t => line5 (j0 + t) (idx t) (bits t)).foldl (round5 w k f) bb) =
      (List.range n).foldl (fun v t => Spec.Ripemd.step5 f k (w (idx t)) (bits t) v) (view5 j0 bb) := by
  induction n with
  | zero => rfl
  | succ n ih =>
    rw [List.range_succ, List.map_append, List.foldl_append, List.foldl_append, ← ih]
    exact round5_eq ..

/-- A whole left round from a table, given that the table has the right shape. -/
theorem left5_of {l : List Step5} {r j0 : Nat}
    (hl : l = (List.range 16).map fun t => line5 (j0 + t) (Spec.Ripemd.word r t) (Spec.Ripemd.shift r (Spec.Ripemd.word r t)))
    (w : Nat → W32) (bb : V5 W32) :
    view5 (j0 + 16) (l.foldl (round5 w (Spec.Ripemd.K r) (Spec.Ripemd.f r)) bb) = Spec.Ripemd.left5 w r (view5 j0 bb) := by
  rw [hl, rounds5_eq]; rfl

theorem right5_of {l : List Step5} {r j0 : Nat}
    (hl : l = (List.range 16).map fun t => line5 (j0 + t) (Spec.Ripemd.word' r t) (Spec.Ripemd.shift r (Spec.Ripemd.word' r t)))
    (w : Nat → W32) (bb : V5 W32) :
    view5 (j0 + 16) (l.foldl (round5 w (Spec.Ripemd.K' r) (Spec.Ripemd.f (4 - r))) bb) =
      Spec.Ripemd.right5 w r (view5 j0 bb) := by
  rw [hl, rounds5_eq]; rfl

/-- The registers A..D before step `j`. -/
def view4 (j : Nat) (v : V4 W32) : V4 W32 :=
  match j % 4 with
  | 0 => v
  | 1 => ⟨v.x3, v.x0, v.x1, v.x2⟩
  | 2 => ⟨v.x2, v.x3, v.x0, v.x1⟩
  | _ => ⟨v.x1, v.x2, v.x3, v.x0⟩

/-- The table line of step `j`. -/
def line4 (j idx bits : Nat) : Step4 :=
  match j % 4 with
  | 0 => ⟨0, 1, 2, 3, idx, bits⟩
  | 1 => ⟨3, 0, 1, 2, idx, bits⟩
  | 2 => ⟨2, 3, 0, 1, idx, bits⟩
  | _ => ⟨1, 2, 3, 0, idx, bits⟩

theorem round4_eq (w : Nat → W32) (k : W32) (f) (bb : V4 W32) (j i b : Nat) :
    view4 (j + 1) (round4 w k f bb (line4 j i b)) = Spec.Ripemd.step4 f k (w i) b (view4 j bb) := by
  have h : j % 4 = 0 ∨ j % 4 = 1 ∨ j % 4 = 2 ∨ j % 4 = 3 := by omega
  unfold view4 line4
  rcases h with h | h | h | h
  · rw [h, show (j + 1) % 4 = 1 by omega]; rfl
  · rw [h, show (j + 1) % 4 = 2 by omega]; rfl
  · rw [h, show (j + 1) % 4 = 3 by omega]; rfl
  · rw [h, show (j + 1) % 4 = 0 by omega]; rfl

theorem rounds4_eq (w : Nat → W32) (k : W32) (f) (idx bits : Nat → Nat) (j0 n : Nat) (bb : V4 W32) :
    view4 (j0 + n) (((List.range n).map fun t => line4 (j0 + t) (idx t) (bits t)).foldl (round4 w k f) bb) =
      (List.range n).foldl (fun v t => Spec.Ripemd.step4 f k (w (idx t)) (bits t) v) (view4 j0 bb) := by
  induction n with
  | zero => rfl
  | succ n ih =>
    rw [List.range_succ, List.map_append, List.foldl_append, List.foldl_append, ← ih]
    exact round4_eq ..

theorem left4_of {l : List Step4} {r : Nat}
    (hl : l = (List.range 16).map fun t => line4 (0 + t) (Spec.Ripemd.word r t) (Spec.Ripemd.shift r (Spec.Ripemd.word r t)))
    (w : Nat → W32) (bb : V4 W32) :
    l.foldl (round4 w (Spec.Ripemd.K r) (Spec.Ripemd.f r)) bb = Spec.Ripemd.left4 w r bb := by
  have := rounds4_eq w (Spec.Ripemd.K r) (Spec.Ripemd.f r) (Spec.Ripemd.word r)
    (fun t => Spec.Ripemd.shift r (Spec.Ripemd.word r t)) 0 16 bb
  rw [← hl] at this
  exact this

theorem right4_of {l : List Step4} {r : Nat}
    (hl : l = (List.range 16).map fun t => line4 (0 + t) (Spec.Ripemd.word' r t) (Spec.Ripemd.shift r (Spec.Ripemd.word' r t)))
    (w : Nat → W32) (bb : V4 W32) :
    l.foldl (round4 w (Spec.Ripemd.K4' r) (Spec.Ripemd.f (3 - r))) bb = Spec.Ripemd.right4 w r bb := by
  have := rounds4_eq w (Spec.Ripemd.K4' r) (Spec.Ripemd.f (3 - r)) (Spec.Ripemd.word' r)
    (fun t => Spec.Ripemd.shift r (Spec.Ripemd.word' r t)) 0 16 bb
  rw [← hl] at this
  exact this

/-! ### Compression functions -/

theorem C128.l0 (w : Nat → W32) (v : V4 W32) :
    C128.r1.foldl (round4 w 0x00000000 bf1) v = Spec.Ripemd.left4 w 0 v :=
  left4_of (l := C128.r1) (r := 0) (by decide +kernel) w v
theorem C128.p0 (w : Nat → W32) (v : V4 W32) :
    C128.pr1.foldl (round4 w 0x50a28be6 bf4) v = Spec.Ripemd.right4 w 0 v :=
  right4_of (l := C128.pr1) (r := 0) (by decide +kernel) w v
theorem C128.l1 (w : Nat → W32) (v : V4 W32) :
    C128.r2.foldl (round4 w 0x5a827999 bf2) v = Spec.Ripemd.left4 w 1 v :=
  left4_of (l := C128.r2) (r := 1) (by decide +kernel) w v
theorem C128.p1 (w : Nat → W32) (v : V4 W32) :
    C128.pr2.foldl (round4 w 0x5c4dd124 bf3) v = Spec.Ripemd.right4 w 1 v :=
  right4_of (l := C128.pr2) (r := 1) (by decide +kernel) w v
theorem C128.l2 (w : Nat → W32) (v : V4 W32) :
    C128.r3.foldl (round4 w 0x6ed9eba1 bf3) v = Spec.Ripemd.left4 w 2 v :=
  left4_of (l := C128.r3) (r := 2) (by decide +kernel) w v
theorem C128.p2 (w : Nat → W32) (v : V4 W32) :
    C128.pr3.foldl (round4 w 0x6d703ef3 bf2) v = Spec.Ripemd.right4 w 2 v :=
  right4_of (l := C128.pr3) (r := 2) (by decide +kernel) w v
theorem C128.l3 (w : Nat → W32) (v : V4 W32) :
    C128.r4.foldl (round4 w 0x8f1bbcdc bf4) v = Spec.Ripemd.left4 w 3 v :=
  left4_of (l := C128.r4) (r := 3) (by decide +kernel) w v
theorem C128.p3 (w : Nat → W32) (v : V4 W32) :
    C128.pr4.foldl (round4 w 0x00000000 bf1) v = Spec.Ripemd.right4 w 3 v :=
  right4_of (l := C128.pr4) (r := 3) (by decide +kernel) w v
theorem C256.l0 (w : Nat → W32) (v : V4 W32) :
    C256.r1.foldl (round4 w 0x00000000 bf1) v = Spec.Ripemd.left4 w 0 v :=
  left4_of (l := C256.r1) (r := 0) (by decide +kernel) w v
theorem C256.p0 (w : Nat → W32) (v : V4 W32) :
    C256.pr1.foldl (round4 w 0x50a28be6 bf4) v = Spec.Ripemd.right4 w 0 v :=
  right4_of (l := C256.pr1) (r := 0) (by decide +kernel) w v
theorem C256.l1 (w : Nat → W32) (v : V4 W32) :
    C256.r2.foldl (round4 w 0x5a827999 bf2) v = Spec.Ripemd.left4 w 1 v :=
  left4_of (l := C256.r2) (r := 1) (by decide +kernel) w v
theorem C256.p1 (w : Nat → W32) (v : V4 W32) :
    C256.pr2.foldl (round4 w 0x5c4dd124 bf3) v = Spec.Ripemd.right4 w 1 v :=
  right4_of (l := C256.pr2) (r := 1) (by decide +kernel) w v
theorem C256.l2 (w : Nat → W32) (v : V4 W32) :
    C256.r3.foldl (round4 w 0x6ed9eba1 bf3) v = Spec.Ripemd.left4 w 2 v :=
  left4_of (l := C256.r3) (r := 2) (by decide +kernel) w v
theorem C256.p2 (w : Nat → W32) (v : V4 W32) :
    C256.pr3.foldl (round4 w 0x6d703ef3 bf2) v = Spec.Ripemd.right4 w 2 v :=
  right4_of (l := C256.pr3) (r := 2) (by decide +kernel) w v
theorem C256.l3 (w : Nat → W32) (v : V4 W32) :
    C256.r4.foldl (round4 w 0x8f1bbcdc bf4) v = Spec.Ripemd.left4 w 3 v :=
  left4_of (l := C256.r4) (r := 3) (by decide +kernel) w v
theorem C256.p3 (w : Nat → W32) (v : V4 W32) :
    C256.pr4.foldl (round4 w 0x00000000 bf1) v = Spec.Ripemd.right4 w 3 v :=
  right4_of (l := C256.pr4) (r := 3) (by decide +kernel) w v
theorem C160.l0 (w : Nat → W32) (v : V5 W32) :
    view5 1 (C160.r1.foldl (round5 w 0x00000000 bf1) v) = Spec.Ripemd.left5 w 0 (view5 0 v) :=
  left5_of (l := C160.r1) (r := 0) (j0 := 0) (by decide +kernel) w v
theorem C160.p0 (w : Nat → W32) (v : V5 W32) :
    view5 1 (C160.pr1.foldl (round5 w 0x50a28be6 bf5) v) = Spec.Ripemd.right5 w 0 (view5 0 v) :=
  right5_of (l := C160.pr1) (r := 0) (j0 := 0) (by decide +kernel) w v
theorem C160.l1 (w : Nat → W32) (v : V5 W32) :
    view5 2 (C160.r2.foldl (round5 w 0x5a827999 bf2) v) = Spec.Ripemd.left5 w 1 (view5 1 v) :=
  left5_of (l := C160.r2) (r := 1) (j0 := 16) (by decide +kernel) w v
theorem C160.p1 (w : Nat → W32) (v : V5 W32) :
    view5 2 (C160.pr2.foldl (round5 w 0x5c4dd124 bf4) v) = Spec.Ripemd.right5 w 1 (view5 1 v) :=
  right5_of (l := C160.pr2) (r := 1) (j0 := 16) (by decide +kernel) w v
theorem C160.l2 (w : Nat → W32) (v : V5 W32) :
    view5 3 (C160.r3.foldl (round5 w 0x6ed9eba1 bf3) v) = Spec.Ripemd.left5 w 2 (view5 2 v) :=
  left5_of (l := C160.r3) (r := 2) (j0 := 32) (by decide +kernel) w v
theorem C160.p2 (w : Nat → W32) (v : V5 W32) :
    view5 3 (C160.pr3.foldl (round5 w 0x6d703ef3 bf3) v) = Spec.Ripemd.right5 w 2 (view5 2 v) :=
  right5_of (l := C160.pr3) (r := 2) (j0 := 32) (by decide +kernel) w v
theorem C160.l3 (w : Nat → W32) (v : V5 W32) :
    view5 4 (C160.r4.foldl (round5 w 0x8f1bbcdc bf4) v) = Spec.Ripemd.left5 w 3 (view5 3 v) :=
  left5_of (l := C160.r4) (r := 3) (j0 := 48) (by decide +kernel) w v
theorem C160.p3 (w : Nat → W32) (v : V5 W32) :
    view5 4 (C160.pr4.foldl (round5 w 0x7a6d76e9 bf2) v) = Spec.Ripemd.right5 w 3 (view5 3 v) :=
  right5_of (l := C160.pr4) (r := 3) (j0 := 48) (by decide +kernel) w v
theorem C160.l4 (w : Nat → W32) (v : V5 W32) :
    view5 5 (C160.r5.foldl (round5 w 0xa953fd4e bf5) v) = Spec.Ripemd.left5 w 4 (view5 4 v) :=
  left5_of (l := C160.r5) (r := 4) (j0 := 64) (by decide +kernel) w v
theorem C160.p4 (w : Nat → W32) (v : V5 W32) :
    view5 5 (C160.pr5.foldl (round5 w 0x00000000 bf1) v) = Spec.Ripemd.right5 w 4 (view5 4 v) :=
  right5_of (l := C160.pr5) (r := 4) (j0 := 64) (by decide +kernel) w v
theorem C320.l0 (w : Nat → W32) (v : V5 W32) :
    view5 1 (C320.r1.foldl (round5 w 0x00000000 bf1) v) = Spec.Ripemd.left5 w 0 (view5 0 v) :=
  left5_of (l := C320.r1) (r := 0) (j0 := 0) (by decide +kernel) w v
theorem C320.p0 (w : Nat → W32) (v : V5 W32) :
    view5 1 (C320.pr1.foldl (round5 w 0x50a28be6 bf5) v) = Spec.Ripemd.right5 w 0 (view5 0 v) :=
  right5_of (l := C320.pr1) (r := 0) (j0 := 0) (by decide +kernel) w v
theorem C320.l1 (w : Nat → W32) (v : V5 W32) :
    view5 2 (C320.r2.foldl (round5 w 0x5a827999 bf2) v) = Spec.Ripemd.left5 w 1 (view5 1 v) :=
  left5_of (l := C320.r2) (r := 1) (j0 := 16) (by decide +kernel) w v
theorem C320.p1 (w : Nat → W32) (v : V5 W32) :
    view5 2 (C320.pr2.foldl (round5 w 0x5c4dd124 bf4) v) = Spec.Ripemd.right5 w 1 (view5 1 v) :=
  right5_of (l := C320.pr2) (r := 1) (j0 := 16) (by decide +kernel) w v
theorem C320.l2 (w : Nat → W32) (v : V5 W32) :
    view5 3 (C320.r3.foldl (round5 w 0x6ed9eba1 bf3) v) = Spec.Ripemd.left5 w 2 (view5 2 v) :=
  left5_of (l := C320.r3) (r := 2) (j0 := 32) (by decide +kernel) w v
theorem C320.p2 (w : Nat → W32) (v : V5 W32) :
    view5 3 (C320.pr3.foldl (round5 w 0x6d703ef3 bf3) v) = Spec.Ripemd.right5 w 2 (view5 2 v) :=
  right5_of (l := C320.pr3) (r := 2) (j0 := 32) (by decide +kernel) w v
theorem C320.l3 (w : Nat → W32) (v : V5 W32) :
    view5 4 (C320.r4.foldl (round5 w 0x8f1bbcdc bf4) v) = Spec.Ripemd.left5 w 3 (view5 3 v) :=
  left5_of (l := C320.r4) (r := 3) (j0 := 48) (by decide +kernel) w v
theorem C320.p3 (w : Nat → W32) (v : V5 W32) :
    view5 4 (C320.pr4.foldl (round5 w 0x7a6d76e9 bf2) v) = Spec.Ripemd.right5 w 3 (view5 3 v) :=
  right5_of (l := C320.pr4) (r := 3) (j0 := 48) (by decide +kernel) w v
theorem C320.l4 (w : Nat → W32) (v : V5 W32) :
    view5 5 (C320.r5.foldl (round5 w 0xa953fd4e bf5) v) = Spec.Ripemd.left5 w 4 (view5 4 v) :=
  left5_of (l := C320.r5) (r := 4) (j0 := 64) (by decide +kernel) w v
theorem C320.p4 (w : Nat → W32) (v : V5 W32) :
    view5 5 (C320.pr5.foldl (round5 w 0x00000000 bf1) v) = Spec.Ripemd.right5 w 4 (view5 4 v) :=
  right5_of (l := C320.pr5) (r := 4) (j0 := 64) (by decide +kernel) w v

section
attribute [local irreducible] Spec.Ripemd.left4 Spec.Ripemd.right4 Spec.Ripemd.left5 Spec.Ripemd.right5

theorem combine128 (h l r : V4 W32) :
    (let bbb := r.set 3 (r.get 3 + h.get 1 + l.get 2)
     let h := h.set 1 (h.get 2 + l.get 3 + bbb.get 0)
     let h := h.set 2 (h.get 3 + l.get 0 + bbb.get 1)
     let h := h.set 3 (h.get 0 + l.get 1 + bbb.get 2)
     h.set 0 (bbb.get 3)) =
    ⟨h.x1 + l.x2 + r.x3, h.x2 + l.x3 + r.x0, h.x3 + l.x0 + r.x1, h.x0 + l.x1 + r.x2⟩ := by
  apply V4.ext
  · show r.x3 + h.x1 + l.x2 = _; rw [BitVec.add_assoc, BitVec.add_comm r.x3]
  all_goals rfl

theorem compress128_eq (h : V4 W32) (b : Bytes) : C128.compress h b = Spec.Ripemd.compress128 h b := by
  simp only [C128.compress, C128.l0, C128.l1, C128.l2, C128.l3, C128.p0, C128.p1, C128.p2, C128.p3]
  exact combine128 h _ _

theorem compress256_eq (h : V2 (V4 W32)) (b : Bytes) : C256.compress h b = Spec.Ripemd.compress256 h b := by
  unfold C256.compress
  simp only [C256.l0, C256.l1, C256.l2, C256.l3, C256.p0, C256.p1, C256.p2, C256.p3]
  rfl

theorem combine160 (h l r : V5 W32) :
    (let bbb := r.set 3 (r.get 3 + h.get 1 + l.get 2)
     let h := h.set 1 (h.get 2 + l.get 3 + bbb.get 4)
     let h := h.set 2 (h.get 3 + l.get 4 + bbb.get 0)
     let h := h.set 3 (h.get 4 + l.get 0 + bbb.get 1)
     let h := h.set 4 (h.get 0 + l.get 1 + bbb.get 2)
     h.set 0 (bbb.get 3)) =
    ⟨h.x1 + l.x2 + r.x3, h.x2 + l.x3 + r.x4, h.x3 + l.x4 + r.x0, h.x4 + l.x0 + r.x1, h.x0 + l.x1 + r.x2⟩ := by
  apply V5.ext
  · show r.x3 + h.x1 + l.x2 = _; rw [BitVec.add_assoc, BitVec.add_comm r.x3]
  all_goals rfl

theorem compress160_eq (h : V5 W32) (b : Bytes) : C160.compress h b = Spec.Ripemd.compress160 h b := by
  refine (combine160 h _ _).trans ?_
  simp only [Spec.Ripemd.compress160]
  have e : ∀ v : V5 W32, v = view5 5 v := fun v => rfl
  rw [e (C160.r5.foldl _ _), C160.l4, C160.l3, C160.l2, C160.l1, C160.l0, e (C160.pr5.foldl _ _), C160.p4,
    C160.p3, C160.p2, C160.p1, C160.p0]
  rfl

/-- Both lines seen by role. -/
def viewP (j : Nat) (p : V5 W32 × V5 W32) : V5 W32 × V5 W32 := (view5 j p.1, view5 j p.2)

theorem swap320_0 (w : Nat → W32) (p : V5 W32 × V5 W32) :
    viewP 1 (C320.swapIdx (C320.r1.foldl (round5 w 0x00000000 bf1) p.1, C320.pr1.foldl (round5 w 0x50a28be6 bf5) p.2) 0) =
      Spec.Ripemd.exchange5 1 (Spec.Ripemd.both5 w 0 (viewP 0 p)) := by
  have h : ∀ q, viewP 1 (C320.swapIdx q 0) = Spec.Ripemd.exchange5 1 (viewP 1 q) := fun q => rfl
  rw [h]
  simp only [viewP, Spec.Ripemd.both5, C320.l0, C320.p0]
theorem swap320_1 (w : Nat → W32) (p : V5 W32 × V5 W32) :
    viewP 2 (C320.swapIdx (C320.r2.foldl (round5 w 0x5a827999 bf2) p.1, C320.pr2.foldl (round5 w 0x5c4dd124 bf4) p.2) 1) =
      Spec.Ripemd.exchange5 3 (Spec.Ripemd.both5 w 1 (viewP 1 p)) := by
  have h : ∀ q, viewP 2 (C320.swapIdx q 1) = Spec.Ripemd.exchange5 3 (viewP 2 q) := fun q => rfl
  rw [h]
  simp only [viewP, Spec.Ripemd.both5, C320.l1, C320.p1]
theorem swap320_2 (w : Nat → W32) (p : V5 W32 × V5 W32) :
    viewP 3 (C320.swapIdx (C320.r3.foldl (round5 w 0x6ed9eba1 bf3) p.1, C320.pr3.foldl (round5 w 0x6d703ef3 bf3) p.2) 2) =
      Spec.Ripemd.exchange5 0 (Spec.Ripemd.both5 w 2 (viewP 2 p)) := by
  have h : ∀ q, viewP 3 (C320.swapIdx q 2) = Spec.Ripemd.exchange5 0 (viewP 3 q) := fun q => rfl
  rw [h]
  simp only [viewP, Spec.Ripemd.both5, C320.l2, C320.p2]
theorem swap320_3 (w : Nat → W32) (p : V5 W32 × V5 W32) :
    viewP 4 (C320.swapIdx (C320.r4.foldl (round5 w 0x8f1bbcdc bf4) p.1, C320.pr4.foldl (round5 w 0x7a6d76e9 bf2) p.2) 3) =
      Spec.Ripemd.exchange5 2 (Spec.Ripemd.both5 w 3 (viewP 3 p)) := by
  have h : ∀ q, viewP 4 (C320.swapIdx q 3) = Spec.Ripemd.exchange5 2 (viewP 4 q) := fun q => rfl
  rw [h]
  simp only [viewP, Spec.Ripemd.both5, C320.l3, C320.p3]
theorem swap320_4 (w : Nat → W32) (p : V5 W32 × V5 W32) :
    viewP 5 (C320.swapIdx (C320.r5.foldl (round5 w 0xa953fd4e bf5) p.1, C320.pr5.foldl (round5 w 0x00000000 bf1) p.2) 4) =
      Spec.Ripemd.exchange5 4 (Spec.Ripemd.both5 w 4 (viewP 4 p)) := by
  have h : ∀ q, viewP 5 (C320.swapIdx q 4) = Spec.Ripemd.exchange5 4 (viewP 5 q) := fun q => rfl
  rw [h]
  simp only [viewP, Spec.Ripemd.both5, C320.l4, C320.p4]

theorem compress320_eq (h : V2 (V5 W32)) (b : Bytes) : C320.compress h b = Spec.Ripemd.compress320 h b := by
  unfold C320.compress
  extract_lets w p1 p2 p3 p4 p5
  have e1 : viewP 1 p1 = _ := swap320_0 w (h.x0, h.x1)
  have e2 : viewP 2 p2 = _ := swap320_1 w p1
  have e3 : viewP 3 p3 = _ := swap320_2 w p2
  have e4 : viewP 4 p4 = _ := swap320_3 w p3
  have e5 : p5 = _ := swap320_4 w p4
  rw [e4, e3, e2, e1] at e5
  rw [e5]
  rfl

theorem laws128 : C128.M.Laws := ⟨fun _ => rfl, fun _ => rfl,
  fun f g h => by
    simp only [C128.M] at h ⊢
    simp only [V4.ofFn, h 0 (by decide), h 1 (by decide), h 2 (by decide), h 3 (by decide)], fun _ => rfl⟩
theorem laws160 : C160.M.Laws := ⟨fun _ => rfl, fun _ => rfl,
  fun f g h => by
    simp only [C160.M] at h ⊢
    simp only [V5.ofFn, h 0 (by decide), h 1 (by decide), h 2 (by decide), h 3 (by decide), h 4 (by decide)], fun _ => rfl⟩
theorem laws256 : C256.M.Laws := ⟨fun _ => rfl, fun _ => rfl,
  fun f g h => by
    simp only [C256.M] at h ⊢
    simp only [V4.ofFn, h 0 (by decide), h 1 (by decide), h 2 (by decide), h 3 (by decide),
      h (0 + 4) (by decide), h (1 + 4) (by decide), h (2 + 4) (by decide), h (3 + 4) (by decide)], fun _ => rfl⟩
theorem laws320 : C320.M.Laws := ⟨fun _ => rfl, fun _ => rfl,
  fun f g h => by
    simp only [C320.M] at h ⊢
    simp only [V5.ofFn, h 0 (by decide), h 1 (by decide), h 2 (by decide), h 3 (by decide), h 4 (by decide),
      h (0 + 5) (by decide), h (1 + 5) (by decide), h (2 + 5) (by decide), h (3 + 5) (by decide),
      h (4 + 5) (by decide)], fun _ => rfl⟩

end
end Ripemd
end Hashes
