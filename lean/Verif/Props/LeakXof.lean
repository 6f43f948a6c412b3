import Verif.Props.LeakRun
import Verif.Proof.Leak.Xof
/-
C75: what an observer of the memory accesses and branches learns of a whole use of an extendable-output function: `new` (with function
name and customization string), any number of `update`s, `finalize_xof`, any number of `read`s.  SHAKE, TurboSHAKE, cSHAKE, Ascon-XOF128,
KangarooTwelve: nothing but lengths, of the strings, the pieces and the buffers read into, not even of the customization string more than
its length.  The programs are those of Verif/Leak/Xof.lean and Verif/Leak/Run.lean.
-/
namespace Hashes
open Leak

/-- Uses of `c` and `c'` with pieces and buffers of the same lengths show the same, and both return or both panic. -/
def ShowSame {τ ρ : Type} (c c' : CoreL τ ρ) (x : XofL ρ) : Prop :=
  ∀ l l' ds ds' : List Bytes, l.map List.length = l'.map List.length → ds.map List.length = ds'.map List.length →
    (c.xofL x l ds).obs = (c'.xofL x l' ds').obs ∧ (c.xofL x l ds).val.isSome = (c'.xofL x l' ds').val.isSome

theorem Leak.Rel.shows_same {α β : Type} {R : α → β → Prop} {x : Leak α} {y : Leak β} (h : Rel R x y) : x.obs = y.obs ∧ x.val.isSome = y.val.isSome := by
  refine ⟨h.1, ?_⟩
  have := h.2
  revert this
  generalize x.val = a
  generalize y.val = b
  intro h
  cases h <;> rfl

/-- C75. Forgetting the observations gives the checked functions of C67: the hashers, and all that is read. -/
theorem C75_values :
    (∀ f rate pad l ds, 0 < rate → ((Sha3.shakeL f rate pad).xofL (Sha3.xofL f rate) l ds).val = ((Sha3.shakeC f rate pad).run l).bind fun r => (Sha3.xofC f rate).output r ds) ∧
    (∀ f rate d l ds, 0 < rate → ((Sha3.turboL f rate d).xofL (Sha3.xofL f rate) l ds).val = ((Sha3.turboC f rate d).run l).bind fun r => (Sha3.xofC f rate).output r ds) ∧
    (∀ f rate N S l ds, 0 < rate →
      ((Sha3.cshakeL f rate N S).xofL (Sha3.xofL f rate) l ds).val = ((Sha3.cshakeC f rate N S).run l).bind fun r => (Sha3.xofC f rate).output r ds) ∧
    (∀ P l ds, ((Ascon.xof128L P).xofL (Ascon.readerL P) l ds).val = ((Ascon.xof128C P).run l).bind fun r => (Ascon.readerC P).output r ds) ∧
    (∀ cust l ds, ((K12.k12L cust).xofL K12.xofL l ds).val = ((K12.k12C cust).run l).bind fun r => K12.xofC.output r ds) :=
  ⟨fun f rate pad l ds h => xofL_val (y := Sha3.xofC f rate) rfl (Sha3.xofL_reads f rate) (Sha3.follows_shake f rate h pad).run l ds,
    fun f rate d l ds h => xofL_val (y := Sha3.xofC f rate) rfl (Sha3.xofL_reads f rate) (Sha3.turboL_follows f h d).run l ds,
    fun f rate N S l ds h => xofL_val (y := Sha3.xofC f rate) rfl (Sha3.xofL_reads f rate) (Sha3.cshakeL_follows f h N S).run l ds,
    fun P l ds => xofL_val (y := Ascon.readerC P) rfl (fun _ => rfl) (Ascon.follows_xof P).run l ds,
    fun cust l ds => xofL_val (y := K12.xofC) rfl K12.xofL_reads (K12.k12L_follows cust).run l ds⟩

/-- C75 (KangarooTwelve), against the specification: what the observed program reads. -/
theorem C75_k12_value (cust : Bytes) (hc : cust.length < 2 ^ 64) (l ds : List Bytes) :
    ((K12.k12L cust).xofL K12.xofL l ds).val =
      if l.flatten.length + cust.length + (Spec.K12.lengthEncode cust.length).length ≤ 2 ^ 77 then some (Spec.K12.kt128 l.flatten cust (total ds)) else none := by
  rw [C75_values.2.2.2.2]
  have h := C67_k12 cust hc l
  split at h
  · next hl =>
    obtain ⟨t, h1, h2⟩ := h
    rw [h1, if_pos hl]
    exact h2 ds
  · next hl => rw [h, if_neg hl]; rfl

/-- C75 (SHAKE): for a permutation of 25 words that shows nothing itself. -/
theorem C75_shake (f : Sha3.Lanes → Sha3.Lanes) (hf : Sha3.Perm f) (rate : Nat) (hr : 0 < rate) (pad : Byte) :
    ShowSame (Sha3.shakeL f rate pad) (Sha3.shakeL f rate pad) (Sha3.xofL f rate) :=
  fun _ _ _ _ hl hd => ((Sha3.shakeL_alike hf hr pad).xof (Sha3.xofL_rel hf rate) hl hd).shows_same

/-- C75 (TurboSHAKE): the domain separation byte is public. -/
theorem C75_turbo (f : Sha3.Lanes → Sha3.Lanes) (hf : Sha3.Perm f) (rate : Nat) (hr : 0 < rate) (d : Byte) :
    ShowSame (Sha3.turboL f rate d) (Sha3.turboL f rate d) (Sha3.xofL f rate) :=
  fun _ _ _ _ hl hd => ((Sha3.turboL_alike hf hr d).xof (Sha3.xofL_rel hf rate) hl hd).shows_same

/-- C75 (cSHAKE): any two function names and customization strings of the same lengths. -/
theorem C75_cshake (f : Sha3.Lanes → Sha3.Lanes) (hf : Sha3.Perm f) (rate : Nat) (hr : 0 < rate) (N N' S S' : Bytes) (hN : N.length = N'.length)
    (hS : S.length = S'.length) : ShowSame (Sha3.cshakeL f rate N S) (Sha3.cshakeL f rate N' S') (Sha3.xofL f rate) :=
  fun _ _ _ _ hl hd => ((Sha3.cshakeL_alike hf hr hN hS).xof (Sha3.xofL_rel hf rate) hl hd).shows_same

/-- C75 (Ascon-XOF128): for a permutation that shows nothing itself. -/
theorem C75_ascon (P : Ascon.State → Ascon.State) : ShowSame (Ascon.xof128L P) (Ascon.xof128L P) (Ascon.readerL P) :=
  fun _ _ _ _ hl hd => ((Ascon.xof128L_alike P).xof (Ascon.readerL_rel P) hl hd).shows_same

/-- C75 (KangarooTwelve): any two customization strings of the same length; messages of any length, so any number of leaves of the tree. -/
theorem C75_k12 (cust cust' : Bytes) (h : cust.length = cust'.length) : ShowSame (K12.k12L cust) (K12.k12L cust') K12.xofL :=
  fun _ _ _ _ hl hd => ((K12.k12L_alike h).xof K12.xofL_rel hl hd).shows_same

/-- C75. Of the message the lengths of the pieces are shown (SHAKE and Ascon-XOF128 are in C74). -/
theorem C75_lengths :
    (∀ f rate d, Sha3.Perm f → 0 < rate → ShowsLengths (Sha3.turboL f rate d)) ∧
    (∀ f rate N S, Sha3.Perm f → 0 < rate → ShowsLengths (Sha3.cshakeL f rate N S)) ∧
    (∀ cust, ShowsLengths (K12.k12L cust)) :=
  ⟨fun _ _ d hf hr => (Sha3.turboL_alike hf hr d).quiet.shows, fun _ _ _ _ hf hr => (Sha3.cshakeL_alike hf hr rfl rfl).quiet.shows,
    fun _ => (K12.k12L_alike rfl).quiet.shows⟩

/-! Concrete cases. -/

/-- Two secret keys as customization strings, two messages of three chunks, read into two buffers. -/
example (m m' : Bytes) (h : m.length = 20000) (h' : m'.length = 20000) :
    ((K12.k12L [1, 2, 3]).xofL K12.xofL [m, [5]] [[0], [0, 0]]).obs = ((K12.k12L [7, 8, 9]).xofL K12.xofL [m', [6]] [[1], [2, 3]]).obs ∧
    ((K12.k12L [1, 2, 3]).xofL K12.xofL [m, [5]] [[0], [0, 0]]).val = some (Spec.K12.kt128 (m ++ [5]) [1, 2, 3] 3) := by
  refine ⟨(C75_k12 [1, 2, 3] [7, 8, 9] rfl [m, [5]] [m', [6]] [[0], [0, 0]] [[1], [2, 3]] (by simp [h, h']) rfl).1, ?_⟩
  have e : (Spec.K12.lengthEncode 3).length = 2 := by decide
  have hl : [m, [5]].flatten.length + [(1 : Byte), 2, 3].length + (Spec.K12.lengthEncode [(1 : Byte), 2, 3].length).length ≤ 2 ^ 77 := by
    simp [h, e]
  rw [C75_k12_value _ (by decide), if_pos hl]
  simp [total]
/-- Where the pieces end is shown. -/
example : ((K12.k12L []).runL [[0], [1, 2]]).obs ≠ ((K12.k12L []).runL [[0, 1], [2]]).obs := fun e => by
  have ok : ∀ l : List Bytes, l.flatten.length = 3 → (((K12.k12L []).runL l).val).isSome := fun l hl => by
    have h := C67_k12 [] (by decide) l
    rw [if_pos (by simp [hl, show (Spec.K12.lengthEncode 0).length = 1 by decide])] at h
    obtain ⟨t, h, -⟩ := h
    rw [(K12.k12L_follows []).run, h]; rfl
  exact absurd ((C75_lengths.2.2 []).2 [[0], [1, 2]] [[0, 1], [2]] rfl (ok [[0], [1, 2]] rfl) (ok [[0, 1], [2]] rfl) e) (by decide)
/-- A cSHAKE with and one without customization string differ: the constructor branches. -/
example : (Sha3.CShake.newL id 168 [] []).obs ≠ (Sha3.CShake.newL id 168 [] [1]).obs := by decide +kernel

end Hashes
