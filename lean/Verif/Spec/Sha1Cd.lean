import Verif.Spec.Fips180
import Verif.Spec.Ubc
/-
What SHA-1 collision detection is supposed to do (M. Stevens, "Counter-cryptanalysis", CRYPTO 2013; S. Manuel,
"Classification and generation of disturbance vectors for collision attacks against SHA-1").
A disturbance vector is an expanded-message-like word sequence fixed by sixteen consecutive words; the message
differences of the corresponding attack are those of a local collision started at every disturbed bit.
-/
namespace Hashes.Spec.Sha1Cd

/-- Disturbance vector of type I or II, position `K`, bit `b`, and the step `T` at which the two compressions of an
attack built on it have equal working state. -/
structure Vector where
  type : Nat
  K : Nat
  b : Nat
  T : Nat
deriving DecidableEq, Repr

/-- Words `K … K+15`: type I has its only disturbance in the last word, type II also in words `K+1` and `K+3`. -/
def window (v : Vector) : List W32 :=
  (List.range 16).map fun i =>
    if i = 15 then (1#32).rotateLeft v.b
    else if v.type = 2 ∧ (i = 1 ∨ i = 3) then (0x80000000#32).rotateLeft v.b
    else 0

/-- Extend upwards by the SHA-1 message expansion. -/
def up (l : List W32) : List W32 :=
  l ++ [(l.getD (l.length - 3) 0 ^^^ l.getD (l.length - 8) 0 ^^^ l.getD (l.length - 14) 0 ^^^
    l.getD (l.length - 16) 0).rotateLeft 1]

/-- Extend downwards by the same recurrence solved for its oldest word. -/
def down (l : List W32) : List W32 :=
  ((l.getD 15 0).rotateRight 1 ^^^ l.getD 12 0 ^^^ l.getD 7 0 ^^^ l.getD 1 0) :: l

def iter {α : Type} (f : α → α) : Nat → α → α
  | 0, x => x
  | n + 1, x => iter f n (f x)

/-- The disturbance vector `DV_{-5} … DV_{79}`. -/
def words (v : Vector) : List W32 := iter up (64 - v.K) (iter down (v.K + 5) (window v))

/-- Message differences: every disturbance `DV_i` starts a local collision with corrections in the five following
steps. -/
def dm (v : Vector) : List W32 :=
  let D := words v
  (List.range 80).map fun i =>
    D.getD (i + 5) 0 ^^^ (D.getD (i + 4) 0).rotateLeft 5 ^^^ D.getD (i + 3) 0 ^^^
      (D.getD (i + 2) 0).rotateLeft 30 ^^^ (D.getD (i + 1) 0).rotateLeft 30 ^^^ (D.getD i 0).rotateLeft 30

/-- The 32 vectors looked for, numbered as in the bit-condition table. -/
def vectors : List Vector := [
  ⟨1, 43, 0, 58⟩, ⟨1, 44, 0, 58⟩, ⟨1, 45, 0, 58⟩, ⟨1, 46, 0, 58⟩, ⟨1, 46, 2, 58⟩, ⟨1, 47, 0, 58⟩, ⟨1, 47, 2, 58⟩,
  ⟨1, 48, 0, 58⟩, ⟨1, 48, 2, 58⟩, ⟨1, 49, 0, 58⟩, ⟨1, 49, 2, 58⟩, ⟨1, 50, 0, 65⟩, ⟨1, 50, 2, 65⟩, ⟨1, 51, 0, 65⟩,
  ⟨1, 51, 2, 65⟩, ⟨1, 52, 0, 65⟩, ⟨2, 45, 0, 58⟩, ⟨2, 46, 0, 58⟩, ⟨2, 46, 2, 58⟩, ⟨2, 47, 0, 58⟩, ⟨2, 48, 0, 58⟩,
  ⟨2, 49, 0, 58⟩, ⟨2, 49, 2, 58⟩, ⟨2, 50, 0, 65⟩, ⟨2, 50, 2, 65⟩, ⟨2, 51, 0, 65⟩, ⟨2, 51, 2, 65⟩, ⟨2, 52, 0, 65⟩,
  ⟨2, 53, 0, 65⟩, ⟨2, 54, 0, 65⟩, ⟨2, 55, 0, 65⟩, ⟨2, 56, 0, 65⟩]

/-- Expanded message of a block. -/
def W (B : Bytes) (t : Nat) : W32 := (Sha1.schedule B).getD t 0

/-- The sibling block: the given one with the first sixteen message differences applied. -/
def sibling (v : Vector) (B : Bytes) : Bytes :=
  bytesOfWordsBE ((List.range 16).map fun i => wordBE 32 B i ^^^ (dm v).getD i 0)

/-- Vector number `k` explains block `B` at chaining value `H` as half of a collision attack: from some chaining value
`H'` the sibling block reaches the same working state at step `T`, and the two compressions give the same output
(or, when reduced-step collisions are asked for, already `H' = H`). -/
def Explains (reduced : Bool) (H : V5 W32) (B : Bytes) (v : Vector) : Prop :=
  ∃ H', Sha1.rounds (W (sibling v B)) v.T H' = Sha1.rounds (W B) v.T H ∧
    (Sha1.compress H' (sibling v B) = Sha1.compress H B ∨ (reduced = true ∧ H' = H))

/-- Some vector explains the block; with `ubc` only vectors whose bit conditions hold are considered. -/
def Hit (ubc reduced : Bool) (H : V5 W32) (B : Bytes) : Prop :=
  ∃ k < 32, ∃ v, vectors[k]? = some v ∧
    (ubc = true → ∀ c ∈ Ubc.conds.getD k [], Ubc.holds (W B) c = true) ∧ Explains reduced H B v

open Classical in
/-- One block: plain SHA-1 compression; on a hit with `safe` the block is compressed three times. -/
noncomputable def step (safe ubc reduced : Bool) (x : V5 W32 × Bool) (B : Bytes) : V5 W32 × Bool :=
  if Hit ubc reduced x.1 B then
    (if safe then Sha1.compress (Sha1.compress (Sha1.compress x.1 B) B) B else Sha1.compress x.1 B, true)
  else (Sha1.compress x.1 B, x.2)

/-- Digest and "attack found" flag. -/
noncomputable def checked (safe ubc reduced : Bool) (m : Bytes) : Bytes × Bool :=
  let r := (chunks 64 (Sha1.pad m)).foldl (step safe ubc reduced) (Sha1.IV, false)
  (bytesOfWordsBE r.1.toList, r.2)

end Hashes.Spec.Sha1Cd
