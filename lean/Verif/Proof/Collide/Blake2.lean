import Verif.Proof.PadInj
import Verif.Props.Blake2
import Verif.Props.Reduction
import Verif.Spec.Inputs
/- C63 for BLAKE2. -/
namespace Hashes
open Spec

namespace Blake2
variable {n : Nat} {c : Cfg (8 * n)} {V : Spec.Blake2.Variant (8 * n)}

/-- The step function of the chain: byte count, block, flag. -/
def fStep {w : Nat} (c : Cfg w) (h : V2 (Vec w)) (x : Nat × Bytes × Bool) : V2 (Vec w) :=
  compress c h (BitVec.ofNat 64 x.1) x.2.1 (if x.2.2 then BitVec.allOnes w else 0) 0

theorem process_eq (g : Good n c V) (hV : V.bb = c.blockSize) (h : V2 (Vec (8 * n))) (d : Bytes) (hd : ∀ k ≤ d.length, CountOk c k) :
    hl ((blake2Input c.blockSize d).foldl (fStep c) h) = Spec.Blake2.process V (hl h) d := by
  have key : ∀ k, k * c.blockSize ≤ d.length →
      hl ((List.range k).foldl (fun h i => fStep c h ((i + 1) * c.blockSize, (d.drop (i * c.blockSize)).take c.blockSize, false)) h) =
      (List.range k).foldl (fun h i => Spec.Blake2.F V h ((d.drop (i * c.blockSize)).take c.blockSize) ((i + 1) * c.blockSize) false) (hl h) := by
    intro k hk
    induction k with
    | zero => rfl
    | succ k ih =>
      rw [Nat.succ_mul] at hk
      rw [List.range_succ, List.foldl_append, List.foldl_append, ← ih (by omega)]
      exact compress_eq g.M g.hr _ (hd _ (by rw [Nat.succ_mul]; exact hk)) _ false
  have h0 : 0 < c.blockSize := by have := g.hbs; have := g.h4; omega
  have hn : (d.length - 1) / c.blockSize * c.blockSize ≤ d.length := by
    have := Nat.div_mul_le_self (d.length - 1) c.blockSize; omega
  rw [blake2Input, List.foldl_append, List.foldl_map]
  simp only [Spec.Blake2.process, hV, ← key _ hn]
  exact compress_eq g.M g.hr _ (hd _ (Nat.le_refl _)) _ true

theorem input_suffix {bb : Nat} {m m' : Bytes} (hne : m ≠ m') : ¬ blake2Input bb m <:+ blake2Input bb m' := by
  rintro ⟨z, h⟩
  simp only [blake2Input, ← List.append_assoc] at h
  obtain ⟨h1, h2⟩ := List.append_inj' h rfl
  obtain ⟨hl, h3⟩ := Prod.mk.inj (List.cons.inj h2).1
  have h4 := (Prod.mk.inj h3).1
  have hz : z = [] := by
    have := congrArg List.length h1
    rw [List.length_append, List.length_map, List.length_map, List.length_range, List.length_range, hl] at this
    exact List.eq_nil_of_length_eq_zero (by omega)
  subst hz
  rw [hl] at h1 h4
  rw [List.nil_append] at h1
  have h5 := (List.append_inj h4 (by rw [List.length_drop, List.length_drop, hl])).1
  have h6 : blocks bb ((m'.length - 1) / bb) m = blocks bb ((m'.length - 1) / bb) m' := by
    have e : ∀ (k : Nat) (l : Bytes), blocks bb k l = (List.range k).map fun i => (l.drop (i * bb)).take bb := by
      intro k
      induction k with
      | zero => intro l; rfl
      | succ k ih =>
        intro l
        rw [blocks, ih, List.range_succ_eq_map, List.map_cons, List.map_map, Nat.zero_mul, List.drop_zero]
        congr 1
        apply List.map_congr_left
        intro i _
        show _ = (l.drop ((i + 1) * bb)).take bb
        rw [List.drop_drop, Nat.add_mul, Nat.one_mul, Nat.add_comm]
    have := congrArg (List.map fun x => x.2.1) h1
    rw [List.map_map, List.map_map] at this
    rw [e, e]; exact this
  have h7 := congrArg List.flatten h6
  rw [flatten_blocks, flatten_blocks] at h7
  apply hne
  rw [← List.take_append_drop ((m'.length - 1) / bb * bb) m, h7, h5, List.take_append_drop]

theorem digest_chain (g : Good n c V) (hV : V.bb = c.blockSize) {persona : Bytes} {out : Nat} {s : State (8 * n)}
    (hs : newWithParams c [] persona 0 out = some s) (m : Bytes) (hd : ∀ k ≤ m.length, CountOk c k) :
    ((varCore c).ctWith out s).finish (((varCore c).ctWith out s).update ((varCore c).ctWith out s).new m) =
      (bytesOfWordsLE (hl ((blake2Input c.blockSize m).foldl (fStep c) s.h))).take out := by
  have := hash_of_chunks g hs [m] (by simpa using hd)
  rw [Spec.Blake2.hash, if_pos rfl, List.nil_append, List.flatten_singleton] at this
  refine Eq.trans this ?_
  rw [process_eq g hV _ _ hd]
  rcases params_eq g.h4 g.M g.hb g.head [] persona 0 out with ⟨-, h0⟩ | ⟨-, s', h1, h2, -, h4⟩
  · rw [h0] at hs; cases hs
  · rw [h1] at hs; cases hs
    rw [h4]; rfl

theorem hl_inj {w : Nat} {a b : V2 (Vec w)} (h : hl a = hl b) : a = b := by
  obtain ⟨h1, h2⟩ := List.append_inj h rfl
  cases a; cases b
  simp only at h1 h2
  rw [V4.toList_inj h1, V4.toList_inj h2]

end Blake2
end Hashes
