import Verif.Props.LeakRun
import Verif.Proof.Leak.Sha1CheckedRun
/-
C77: what an observer of the memory accesses and branches learns from a whole use of sha1-checked (Verif/Leak/Sha1CheckedRun.lean, with the
observations of C64): a hasher made by a builder, updates, `try_finalize`.
-/
namespace Hashes
open Leak Sha1Checked

/-- C77. Forgetting the observations gives the whole program of C60. -/
theorem C77_values (x : Builder) (l : List Bytes) : ((sha1CheckedL x).runL l).val = (sha1CheckedC x).run l := (follows x).run l

/-- C77. With detection off the lengths of the pieces are shown and nothing else. -/
theorem C77_off (x : Builder) (h : x.detectCollision = false) : ShowsLengths (sha1CheckedL x) := (quiet x h).shows

/-- C77. Without the filter, uses on pieces of the same lengths that report no attack cannot be told apart. -/
theorem C77_unattacked (x : Builder) (h : x.ubcCheck = false) (l l' : List Bytes) (hl : l.map List.length = l'.map List.length) (o o' : Bytes)
    (h1 : ((sha1CheckedL x).runL l).val = some (.ok o)) (h2 : ((sha1CheckedL x).runL l').val = some (.ok o')) :
    ((sha1CheckedL x).runL l).obs = ((sha1CheckedL x).runL l').obs :=
  ((calm x h).run hl _ _ h1 h2 ⟨_, rfl⟩ ⟨_, rfl⟩).1

/-- C77. With any configuration, the lengths of the pieces and whether an attack is reported are shown. -/
theorem C77_shown (x : Builder) (l l' : List Bytes) (hl : l.length = l'.length) (r r' : Result) (h1 : ((sha1CheckedL x).runL l).val = some r)
    (h2 : ((sha1CheckedL x).runL l').val = some r') (ho : ((sha1CheckedL x).runL l).obs = ((sha1CheckedL x).runL l').obs) :
    l.map List.length = l'.map List.length ∧ r.hasCollision = r'.hasCollision := by
  obtain ⟨-, e, hf⟩ := (partly x).run hl r r' [] [] h1 h2 (by rw [ho])
  refine ⟨e, ?_⟩
  have key : ∀ r : Result, Fine r ↔ r.hasCollision = false := by
    intro r
    cases r with
    | ok o => exact iff_of_true ⟨o, rfl⟩ rfl
    | mitigated => exact iff_of_false (by rintro ⟨_, ⟨⟩⟩) (by simp [Result.hasCollision])
    | collision => exact iff_of_false (by rintro ⟨_, ⟨⟩⟩) (by simp [Result.hasCollision])
  rw [key, key] at hf
  cases h : r.hasCollision <;> cases h' : r'.hasCollision <;> simp [h, h'] at hf ⊢

/-- C77. With detection, moreover, every whole block is judged alike: cut the messages into blocks of 64 bytes and a rest. -/
theorem C77_judged (x : Builder) (hd : x.detectCollision = true) (l l' : List Bytes) (hl : l.length = l'.length)
    (h1 : ((sha1CheckedL x).runL l).val.isSome) (h2 : ((sha1CheckedL x).runL l').val.isSome)
    (ho : ((sha1CheckedL x).runL l).obs = ((sha1CheckedL x).runL l').obs)
    (L L' : List Bytes) (t t' : Bytes) (hL : ∀ b ∈ L, b.length = 64) (hL' : ∀ b ∈ L', b.length = 64) (ht : t.length < 64) (ht' : t'.length < 64)
    (e : l.flatten = L.flatten ++ t) (e' : l'.flatten = L'.flatten ++ t') :
    L.length = L'.length ∧ ∀ i (_ : i < L.length) (_ : i < L'.length),
      JudgedAlike x.ubcCheck x.reducedRoundCollision (checkedChain x.safeHash x.ubcCheck x.reducedRoundCollision Sha1.H0 L i) L[i]
        (checkedChain x.safeHash x.ubcCheck x.reducedRoundCollision Sha1.H0 L' i) L'[i] := by
  obtain ⟨r, h1⟩ := Option.isSome_iff_exists.mp h1
  obtain ⟨r', h2⟩ := Option.isSome_iff_exists.mp h2
  obtain ⟨s, M, M', _, _, u, u', hs, hM, hM', hu, hu', hJ, c, c'⟩ := (story x hd).run hl h1 h2 ho
  cases hs
  obtain rfl := cut_unique hL hM ht (by rw [hu.length_content]; exact hu.2) (e.symm.trans c)
  obtain rfl := cut_unique hL' hM' ht' (by rw [hu'.length_content]; exact hu'.2) (e'.symm.trans c')
  exact ⟨hJ.1, hJ.2.2.2⟩

/-! Cases: messages of 64 bytes in one piece. -/

theorem ok_of_not {v : Option Result} (h : (v.any fun r => !r.hasCollision) = true) : ∃ o, v = some (.ok o) := by
  cases v with
  | none => cases h
  | some r => cases r with
    | ok o => exact ⟨o, rfl⟩
    | mitigated => cases h
    | collision => cases h

/-- Without the filter. -/
def noFilter : Builder := ⟨true, true, false, false⟩

theorem run_zeros : (((sha1CheckedC noFilter).run [List.replicate 64 0]).any fun r => !r.hasCollision) = true := by decide +kernel
theorem run_eights : (((sha1CheckedC noFilter).run [List.replicate 64 8]).any fun r => !r.hasCollision) = true := by decide +kernel

/-- Zeros and eights, without the filter: neither is reported, so they show the same; so their first blocks are judged alike. -/
theorem same_shown : ((sha1CheckedL noFilter).runL [List.replicate 64 0]).obs = ((sha1CheckedL noFilter).runL [List.replicate 64 8]).obs := by
  obtain ⟨o, ho⟩ := ok_of_not run_zeros
  obtain ⟨o', ho'⟩ := ok_of_not run_eights
  rw [← C77_values] at ho ho'
  exact C77_unattacked noFilter rfl [List.replicate 64 0] [List.replicate 64 8] (by simp only [List.map_cons, List.map_nil, List.length_replicate]) o o' ho ho'

example : JudgedAlike false false Sha1.H0 (List.replicate 64 0) Sha1.H0 (List.replicate 64 8) := by
  obtain ⟨o, ho⟩ := ok_of_not run_zeros
  obtain ⟨o', ho'⟩ := ok_of_not run_eights
  rw [← C77_values] at ho ho'
  have one : ∀ v : Byte, ∀ b ∈ [List.replicate 64 v], b.length = 64 := fun v b hb => by rw [List.mem_singleton.mp hb, List.length_replicate]
  exact (C77_judged noFilter rfl [List.replicate 64 0] [List.replicate 64 8] rfl (by rw [ho]; rfl) (by rw [ho']; rfl) same_shown
    [List.replicate 64 0] [List.replicate 64 8] [] [] (one 0) (one 8) (by decide) (by decide) (List.append_nil _).symm (List.append_nil _).symm).2 0 (by decide) (by decide)

theorem default_zeros : (((sha1CheckedC Builder.default).run [List.replicate 64 0]).any fun r => !r.hasCollision) = true := by decide +kernel
theorem default_eights : (((sha1CheckedC Builder.default).run [List.replicate 64 8]).any fun r => !r.hasCollision) = true := by decide +kernel

/-- C77. With the default configuration, messages of the same length of which none is reported can be told apart: zeros and eights. -/
theorem C77_default : ∃ m m' o o' : Bytes, m.length = m'.length ∧ ((sha1CheckedL Builder.default).runL [m]).val = some (.ok o) ∧
    ((sha1CheckedL Builder.default).runL [m']).val = some (.ok o') ∧
    ((sha1CheckedL Builder.default).runL [m]).obs ≠ ((sha1CheckedL Builder.default).runL [m']).obs := by
  obtain ⟨o, ho⟩ := ok_of_not default_zeros
  obtain ⟨o', ho'⟩ := ok_of_not default_eights
  rw [← C77_values] at ho ho'
  exact ⟨_, _, o, o', by simp only [List.length_replicate], ho, ho', by decide +kernel⟩

end Hashes
