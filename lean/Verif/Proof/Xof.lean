import Verif.Model.Xof
/- The extendable-output reader delivers consecutive bytes of one stream. -/
namespace Hashes
namespace XofCore
variable {ρ : Type} {x : XofCore ρ} {inv : ρ → Prop}

/-- All blocks have the block size, on states satisfying the invariant. -/
structure Lawful (x : XofCore ρ) (inv : ρ → Prop) : Prop where
  bs_pos : 0 < x.bs
  len : ∀ r, inv r → (x.readBlock r).1.length = x.bs
  next : ∀ r, inv r → inv (x.readBlock r).2

/-- First `k` blocks of the output stream. -/
abbrev stream (x : XofCore ρ) (k : Nat) (r : ρ) : Bytes := (x.readBlocks k r).1

theorem readBlocks_add (j k : Nat) (r : ρ) :
    x.readBlocks (j + k) r =
      ((x.readBlocks j r).1 ++ (x.readBlocks k (x.readBlocks j r).2).1, (x.readBlocks k (x.readBlocks j r).2).2) := by
  induction j generalizing r with
  | zero => simp [readBlocks]
  | succ j ih => rw [Nat.add_right_comm]; simp [readBlocks, ih]

theorem length_stream (L : x.Lawful inv) (k : Nat) (r : ρ) (hr : inv r) :
    (x.stream k r).length = k * x.bs ∧ inv (x.readBlocks k r).2 := by
  induction k generalizing r with
  | zero => simp [stream, readBlocks, hr]
  | succ k ih =>
    obtain ⟨h1, h2⟩ := ih _ (L.next r hr)
    simp only [stream, readBlocks, List.length_append, L.len r hr]
    refine ⟨?_, h2⟩
    rw [h1, Nat.add_mul]; omega

/-- Reachable reader states. -/
def WF (x : XofCore ρ) (inv : ρ → Prop) (rd : Reader ρ) : Prop := rd.buf.length = x.bs ∧ rd.pos ≤ x.bs ∧ inv rd.core

theorem WF.reader {r : ρ} (hr : inv r) : x.WF inv (x.reader r) := by simp [WF, XofCore.reader, hr]

/-- The bytes still to come: cached ones, then `k` more blocks. -/
def future (x : XofCore ρ) (rd : Reader ρ) (k : Nat) : Bytes := rd.buf.drop rd.pos ++ x.stream k rd.core

theorem future_reader (r : ρ) (k : Nat) : x.future (x.reader r) k = x.stream k r := by
  simp [future, XofCore.reader]

theorem read_spec (L : x.Lawful inv) {rd : Reader ρ} (wf : x.WF inv rd) (n : Nat) :
    (x.read rd n).1.length = n ∧ x.WF inv (x.read rd n).2 ∧
    ∃ j, ∀ k, x.future rd (j + k) = (x.read rd n).1 ++ x.future (x.read rd n).2 k := by
  obtain ⟨hb, hp, hi⟩ := wf
  obtain ⟨core, buf, pos⟩ := rd
  simp only at hb hp hi
  have hbs := L.bs_pos
  simp only [read]
  by_cases hn : n ≤ x.bs - pos
  · have hmin : min (x.bs - pos) n = n := by omega
    simp only [hmin, Nat.sub_self, Nat.zero_mod, Nat.zero_div, if_true, readBlocks, List.append_nil]
    refine ⟨by simp [hb]; omega, ⟨hb, by simp only; omega, hi⟩, 0, fun k => ?_⟩
    simp only [future, Nat.zero_add]
    rw [← List.append_assoc, ← List.drop_drop, List.take_append_drop]
  · have hmin : min (x.bs - pos) n = x.bs - pos := by omega
    simp only [hmin]
    have hfull : (buf.drop pos).take (x.bs - pos) = buf.drop pos := List.take_of_length_le (by simp [hb])
    generalize hr : n - (x.bs - pos) = rest
    have hdm := Nat.div_add_mod' rest x.bs
    obtain ⟨hls, hi'⟩ := length_stream L (rest / x.bs) core hi
    simp only [stream] at hls
    by_cases ht : rest % x.bs = 0
    · rw [if_pos ht, hfull]
      refine ⟨by simp only [List.length_append, List.length_drop, hb, hls]; omega,
        ⟨hb, by simp only; omega, hi'⟩, rest / x.bs, fun k => ?_⟩
      simp only [future, stream, readBlocks_add]
      rw [show pos + (x.bs - pos) = x.bs by omega, List.drop_of_length_le (l := buf) (i := x.bs) (by omega)]
      simp
    · rw [if_neg ht, hfull]
      have hlt := Nat.mod_lt rest hbs
      refine ⟨?_, ⟨L.len _ hi', by simp only; omega, L.next _ hi'⟩, rest / x.bs + 1, fun k => ?_⟩
      · simp only [List.length_append, List.length_drop, List.length_take, hb, hls, L.len _ hi']; omega
      · simp only [future, stream]
        rw [Nat.add_assoc, readBlocks_add, Nat.add_comm 1 k]
        simp only [readBlocks, List.append_assoc]
        congr 2
        rw [← List.append_assoc, List.take_append_drop]

theorem reads_spec (L : x.Lawful inv) {rd : Reader ρ} (wf : x.WF inv rd) (l : List Nat) :
    (x.reads rd l).1.length = l.sum ∧ x.WF inv (x.reads rd l).2 ∧
    ∃ j, ∀ k, x.future rd (j + k) = (x.reads rd l).1 ++ x.future (x.reads rd l).2 k := by
  induction l generalizing rd with
  | nil => exact ⟨rfl, wf, 0, fun k => by simp [reads]⟩
  | cons n l ih =>
    obtain ⟨h1, h2, j, h3⟩ := read_spec L wf n
    obtain ⟨h4, h5, i, h6⟩ := ih h2
    refine ⟨by simp [reads, h1, h4], h5, j + i, fun k => ?_⟩
    rw [Nat.add_assoc, h3, h6]
    simp [reads]

/-- What a reader delivers is a prefix of its stream. -/
theorem read_eq (L : x.Lawful inv) {r : ρ} (hr : inv r) (n k : Nat) (hk : n ≤ k * x.bs) :
    (x.read (x.reader r) n).1 = (x.stream k r).take n := by
  obtain ⟨h1, -, j, h3⟩ := read_spec L (WF.reader hr) n
  have := h3 k
  rw [future_reader, Nat.add_comm, stream, readBlocks_add] at this
  have := congrArg (List.take n) this
  rw [List.take_left' h1, List.take_append_of_le_length] at this
  · exact this.symm
  · have := (length_stream L k r hr).1; simp only [stream] at this; omega

theorem reads_eq_of_wf (L : x.Lawful inv) {rd : Reader ρ} (wf : x.WF inv rd) (l : List Nat) :
    (x.reads rd l).1 = (x.read rd l.sum).1 := by
  obtain ⟨h1, -, j, h3⟩ := reads_spec L wf l
  obtain ⟨k1, -, i, k3⟩ := read_spec L wf l.sum
  have a := h3 i
  have b := k3 j
  rw [Nat.add_comm, b] at a
  exact ((List.append_inj a (by omega)).1).symm

theorem reads_eq (L : x.Lawful inv) {r : ρ} (hr : inv r) (l : List Nat) :
    (x.reads (x.reader r) l).1 = (x.read (x.reader r) l.sum).1 := reads_eq_of_wf L (WF.reader hr) l

/-- A shorter read is a prefix of a longer one. -/
theorem read_prefix (L : x.Lawful inv) {rd : Reader ρ} (wf : x.WF inv rd) {n m : Nat} (h : n ≤ m) :
    (x.read rd n).1 <+: (x.read rd m).1 := by
  have := reads_eq_of_wf L wf [n, m - n]
  simp only [reads, List.sum_cons, List.sum_nil] at this
  rw [show n + (m - n + 0) = m by omega] at this
  exact ⟨_, this⟩

/-- After any reads the reader continues the stream where it stopped. -/
theorem reads_append (l l' : List Nat) (rd : Reader ρ) :
    x.reads rd (l ++ l') = ((x.reads rd l).1 ++ (x.reads (x.reads rd l).2 l').1, (x.reads (x.reads rd l).2 l').2) := by
  induction l generalizing rd with
  | nil => simp [reads]
  | cons n l ih => simp [reads, ih]

end XofCore
end Hashes
