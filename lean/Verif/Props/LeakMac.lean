import Verif.Proof.Leak.Blake2Mac
import Verif.Props.MacChecked
/-
C76: what an observer of the memory accesses and branches learns from BLAKE2 MACs: lengths, and nothing of key, salt,
personalisation, message or tag.
-/
namespace Hashes.Blake2
open Leak
variable {w : Nat}

/-- Which function is called, and the length of what is passed. -/
def MacOp.shape : MacOp → Nat × Nat
  | .update d => (0, d.length)
  | .reset => (1, 0)
  | .finalizeReset => (2, 0)
  | .finalizeClone => (3, 0)

/-- What is left of an outcome without its secrets: panic, error, or the lengths of the tags. -/
def outcome (x : Leak (Option (List Bytes))) : Option (Option (List Nat)) := x.val.map fun r => r.map fun l => l.map List.length

theorem sameOps {ops ops' : List MacOp} (h : ops.map MacOp.shape = ops'.map MacOp.shape) : Each SameOp ops ops' := by
  induction ops generalizing ops' with
  | nil => cases ops' with
    | nil => exact .nil
    | cons => cases h
  | cons a l ih => cases ops' with
    | nil => cases h
    | cons b l' =>
      simp only [List.map_cons, List.cons.injEq] at h
      refine .cons ?_ (ih h.2)
      have h1 := h.1
      cases a <;> cases b <;> simp [MacOp.shape] at h1 <;> first | exact .update h1 | exact .reset | exact .finalizeReset | exact .finalizeClone
theorem sameCalls {ops ops' : List MacOp} (h : ops.map (fun o => o.shape.1) = ops'.map fun o => o.shape.1) : Each SameCall ops ops' := by
  induction ops generalizing ops' with
  | nil => cases ops' with
    | nil => exact .nil
    | cons => cases h
  | cons a l ih => cases ops' with
    | nil => cases h
    | cons b l' =>
      simp only [List.map_cons, List.cons.injEq] at h
      refine .cons ?_ (ih h.2)
      have h1 := h.1
      cases a <;> cases b <;> simp [MacOp.shape] at h1 <;> first | exact .update | exact .reset | exact .finalizeReset | exact .finalizeClone
theorem shapes {ops ops' : List MacOp} (h : Each SameOp ops ops') : ops.map MacOp.shape = ops'.map MacOp.shape := by
  induction h with
  | nil => rfl
  | cons ho _ ih =>
    rw [List.map_cons, List.map_cons, ih]
    cases ho with
    | update hd => rw [MacOp.shape, MacOp.shape, show _ = _ from hd]
    | _ => rfl
theorem sameKey {key key' : Option Bytes} : SameKey key key' ↔ key.map List.length = key'.map List.length := by
  cases key <;> cases key' <;> simp [SameKey, Len]
theorem each_len {l l' : List Bytes} (h : Each Len l l') : l.map List.length = l'.map List.length := by
  induction h with
  | nil => rfl
  | cons h _ ih => rw [List.map_cons, List.map_cons, ih, show _ = _ from h]
theorem outcome_eq {x y : Leak (Option (List Bytes))} (h : Rel SameTags x y) : x.obs = y.obs ∧ outcome x = outcome y := by
  refine ⟨h.1, ?_⟩
  have hv := h.2
  unfold outcome
  cases hx : x.val <;> cases hy : y.val <;> rw [hx, hy] at hv <;> cases hv
  next r r' h =>
    cases r <;> cases r' <;> try exact h.elim
    · rfl
    · exact congrArg (fun n => some (some n)) (each_len h)

/-- Forgetting the observations gives the MACs of Checked/Blake2Mac.lean, of which C70 says what they return. -/
theorem C76_values (c : Cfg w) (hc : 0 < c.blockSize) (o : Nat) (ops : List MacOp) :
    (∀ key salt persona, (macL c o key salt persona ops).val = macC c o key salt persona ops) ∧
    ∀ key, (macSliceL c o key ops).val = macSliceC c o key ops :=
  ⟨fun key salt persona => macL_val hc o key salt persona ops, fun key => macSliceL_val hc o key ops⟩

/-- C76: a MAC object made in either way and used in whatever way: with key, salt, personalisation and inputs of the same lengths the
same is shown, and the outcome (panic, error, number and lengths of the tags) is the same. -/
theorem C76_lengths (c : Cfg w) (hc : c.blockSize = 128 ∨ c.blockSize = 64) (o : Nat) (ops ops' : List MacOp) (ho : ops.map MacOp.shape = ops'.map MacOp.shape) :
    (∀ key key' salt salt' persona persona', key.map List.length = key'.map List.length → salt.length = salt'.length → persona.length = persona'.length →
      (macL c o key salt persona ops).obs = (macL c o key' salt' persona' ops').obs ∧
      outcome (macL c o key salt persona ops) = outcome (macL c o key' salt' persona' ops')) ∧
    ∀ key key' : Bytes, key.length = key'.length →
      (macSliceL c o key ops).obs = (macSliceL c o key' ops').obs ∧ outcome (macSliceL c o key ops) = outcome (macSliceL c o key' ops') :=
  have h0 : 0 < c.blockSize := by omega
  ⟨fun _ _ _ _ _ _ hk hs hp => outcome_eq (macL_rel h0 o (sameKey.2 hk) hs hp (sameOps ho)),
    fun _ _ hk => outcome_eq (macSliceL_rel h0 o hk (sameOps ho))⟩

/-- C76: whether there is a key, its length and the lengths of all inputs are shown by uses that return tags (for salts and
personalisations of known lengths, and the same functions called). -/
theorem C76_shown (c : Cfg w) (hc : c.blockSize = 128 ∨ c.blockSize = 64) (o : Nat) (ops ops' : List MacOp)
    (ho : ops.map (fun x => x.shape.1) = ops'.map fun x => x.shape.1) :
    (∀ (key key' : Option Bytes) (salt salt' persona persona' : Bytes) (l l' : List Bytes), salt.length = salt'.length → persona.length = persona'.length →
      (macL c o key salt persona ops).val = some (some l) → (macL c o key' salt' persona' ops').val = some (some l') →
      (macL c o key salt persona ops).obs = (macL c o key' salt' persona' ops').obs →
      key.map List.length = key'.map List.length ∧ ops.map MacOp.shape = ops'.map MacOp.shape) ∧
    ∀ (key key' : Bytes) (l l' : List Bytes), (macSliceL c o key ops).val = some (some l) → (macSliceL c o key' ops').val = some (some l') →
      (macSliceL c o key ops).obs = (macSliceL c o key' ops').obs → key.length = key'.length ∧ ops.map MacOp.shape = ops'.map MacOp.shape := by
  have h0 : 0 < c.blockSize := by omega
  have ok : ∀ {key : Option Bytes} {salt persona : Bytes} {ops : List MacOp} {l : List Bytes}, (macL c o key salt persona ops).val = some (some l) →
      ¬ (key.isSome ∧ keyLen key = 0 ∨ keyLen key > c.blockSize ∨ salt.length > c.blockSize / 4 ∨ persona.length > c.blockSize / 4) := by
    intro key salt persona ops l h hbad
    rw [macL_val h0, macC, newWithSaltAndPersonalC, if_pos hbad] at h
    cases h
  have okS : ∀ {key : Bytes} {ops : List MacOp} {l : List Bytes}, (macSliceL c o key ops).val = some (some l) → key.length ≤ c.bytes := by
    intro key ops l h
    by_cases hbad : key.length > c.bytes
    · rw [macSliceL_val h0, macSliceC, newFromSliceC, if_pos hbad] at h
      cases h
    · omega
  refine ⟨fun key key' salt salt' persona persona' l l' hs hp h1 h2 he => ?_, fun key key' l l' h1 h2 he => ?_⟩
  · have := ((macL_reads h0 o (ok h1) (ok h2) hs hp (sameCalls ho)) _ _ [] [] h1 h2 (by rw [he])).2
    exact ⟨sameKey.1 this.1, shapes this.2⟩
  · have := ((macSliceL_reads h0 o (okS h1) (okS h2) (sameCalls ho)) _ _ [] [] h1 h2 (by rw [he])).2
    exact ⟨this.1, shapes this.2⟩

/-- Nothing of the secrets, but not nothing: different keys of one length show the same and give different tags; keys of different
lengths show different things. -/
example : (macSliceL cfgS 32 [1] [.update [2, 3], .finalizeReset]).obs = (macSliceL cfgS 32 [7] [.update [9, 9], .finalizeReset]).obs :=
  ((C76_lengths cfgS (.inr rfl) 32 [.update [2, 3], .finalizeReset] [.update [9, 9], .finalizeReset] rfl).2 [1] [7] rfl).1
example : (macSliceL cfgS 32 [1] [.update [2, 3], .finalizeReset]).val ≠ (macSliceL cfgS 32 [7] [.update [9, 9], .finalizeReset]).val := by decide +kernel
example : (macSliceL cfgS 32 [1] [.update [2, 3], .finalizeReset]).obs ≠ (macSliceL cfgS 32 [1, 7] [.update [2, 3], .finalizeReset]).obs := by decide +kernel
example : outcome (macL cfgB 16 (some [1, 2]) [3] [4, 5] [.update [2, 3], .finalizeClone, .reset, .finalizeReset]) = some (some [16, 16]) := by decide +kernel
example : outcome (macL cfgB 16 (some []) [3] [4, 5] []) = some none ∧ outcome (macL cfgB 16 (some (List.replicate 65 0)) [] [] []) = none := by decide +kernel

end Hashes.Blake2
