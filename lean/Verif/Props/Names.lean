import Verif.Proof.Names
import Verif.Model.Ascon
import Verif.Props.Perm
/-
C65: the name a hasher reports identifies what it computes, and printing a hasher shows nothing of what was hashed.

Full statement: two hasher types with the same `write_alg_name` are the same type, and the `Debug` text of every object is determined
by its type.  Both have exceptions in the code: Skein reports one name for all output sizes, and the cores of ascon-hash derive `Debug`
and print their whole state.
-/
namespace Hashes.Names

/-- C65, names (partial: but for the output size of Skein): for every output size of the variable-output cores. -/
theorem C65_names_partial (h h' : Hash) (p : h.Proper) (p' : h'.Proper) (e : h.name = h'.name) :
    h = h' ∨ ∃ w n n', h = .fixed (.skein w n) ∧ h' = .fixed (.skein w n') := by
  cases h with
  | fixed c => cases h' with
    | fixed c' =>
      rcases core_name e with rfl | ⟨w, n, n', rfl, rfl⟩
      · exact .inl rfl
      · exact .inr ⟨w, n, n', rfl, rfl⟩
    | ct c' n => exact absurd e.symm (ct_ne p' c n)
  | ct c n => cases h' with
    | fixed c' => exact absurd e (ct_ne p c' n)
    | ct c' n' =>
      have key : ∀ (l l' : Text) (n n' : Nat), l ++ '_' :: dec n = l' ++ '_' :: dec n' → l = l' ∧ n = n' := by
        intro l l' n n' e
        have e' := congrArg List.reverse e
        simp only [List.reverse_append, List.reverse_cons, List.append_assoc, List.singleton_append] at e'
        have tw : ∀ (k : Nat) (t : Text), ((dec k).reverse ++ '_' :: t).takeWhile (· ≠ '_') = (dec k).reverse := fun k t => by
          rw [List.takeWhile_append_of_pos (fun c hc => by
            have := Nat.underscore_not_in_toDigits (n := k)
            simp only [ne_eq, decide_not, Bool.not_eq_eq_eq_not, Bool.not_true, decide_eq_false_iff_not]
            rintro rfl
            exact this (List.mem_reverse.mp hc)), List.takeWhile_cons_of_neg (by simp), List.append_nil]
        have d : dec n = dec n' := List.reverse_inj.mp (by rw [← tw n, e', tw n'])
        cases dec_inj d
        exact ⟨List.append_cancel_right e, rfl⟩
      obtain ⟨h1, rfl⟩ := key _ _ _ _ e
      exact .inl (by rw [plain_name c (mem_plains c) c' (mem_plains c') h1])

/-- Skein reports the same name for all output sizes, and so the full statement fails. -/
theorem C65_names_violated (w : Wide) (n n' : Nat) :
    (Hash.fixed (.skein w n)).name = (Hash.fixed (.skein w n')).name ∧ ¬ (∀ h h' : Hash, h.Proper → h'.Proper → h.name = h'.name → h = h') :=
  ⟨rfl, fun f => by cases f (.fixed (.skein .w512 32)) (.fixed (.skein .w512 64)) trivial trivial rfl⟩

/-- `Debug` of the wrapped hashers: by the type alone, and telling the types apart as far as the names do. -/
theorem C65_wrapped (h h' : Hash) : h.debug = h'.debug ↔ h.name = h'.name := ⟨List.append_cancel_right, fun e => congrArg (· ++ _) e⟩

/-- The objects printed other than wrapped hashers. -/
inductive Printed
  | core (c : Core) | asconReader | mac (b : Bool) (n : Nat) | sha1Checked

def Printed.debug : Printed → List W64 → Text
  | .core c, x => c.debug x
  | .asconReader, x => asconReaderDebug x
  | .mac b n, _ => macDebug b n
  | .sha1Checked, _ => sha1CheckedDebug

/-- The types of ascon-hash. -/
def Printed.ascon : Printed → Bool
  | .core .asconHash | .core .asconXof | .asconReader => true
  | _ => false

/-- C65, printing (partial: but for ascon-hash): the text does not depend on the state. -/
theorem C65_debug_partial (o : Printed) (ho : o.ascon = false) (x x' : List W64) : o.debug x = o.debug x' := by
  cases o with
  | core c => cases c <;> first | rfl | cases ho
  | asconReader => cases ho
  | _ => rfl

/-- The text tells the types apart, including the output sizes of Skein and of the MACs, whatever the states. -/
theorem C65_debug_types (o o' : Printed) (x x' : List W64) (h : o.debug x = o'.debug x') : o = o' := by
  have view : ∀ (o : Printed) (x : List W64), ∃ (hd : Head) (t : Text), o.debug x = hd.text ++ t ∧
      match hd with
      | .plain c => o = .core (.plain c) | .skein w => ∃ n, o = .core (.skein w n) ∧ t = dec n ++ "> { .. }".toList
      | .asconHash => o = .core .asconHash | .asconXof => o = .core .asconXof | .asconReader => o = .asconReader
      | .mac b => ∃ n, o = .mac b n ∧ t = dec n ++ " { ... }".toList | .sha1Checked => o = .sha1Checked := by
    intro o x
    cases o with
    | core c => cases c with
      | plain c => exact ⟨.plain c, [], (List.append_nil _).symm, rfl⟩
      | skein w n => exact ⟨.skein w, _, List.append_assoc .., n, rfl, rfl⟩
      | asconHash => exact ⟨.asconHash, _, List.append_assoc .., rfl⟩
      | asconXof => exact ⟨.asconXof, _, List.append_assoc .., rfl⟩
    | asconReader => exact ⟨.asconReader, _, List.append_assoc .., rfl⟩
    | mac b n => exact ⟨.mac b, _, List.append_assoc .., n, rfl, rfl⟩
    | sha1Checked => exact ⟨.sha1Checked, [], (List.append_nil _).symm, rfl⟩
  have s1 : Stop "> { .. }".toList := by
    rw [show "> { .. }".toList = '>' :: " { .. }".toList by decide +kernel]; exact stop_cons (by decide)
  have s2 : Stop " { ... }".toList := by
    rw [show " { ... }".toList = ' ' :: "{ ... }".toList by decide +kernel]; exact stop_cons (by decide)
  obtain ⟨hd, t, e, m⟩ := view o x
  obtain ⟨hd', t', e', m'⟩ := view o' x'
  have e'' : hd.text ++ t = hd'.text ++ t' := by rw [← e, ← e', h]
  cases head_inj e''
  have et := List.append_cancel_left e''
  cases hd with
  | skein w =>
    obtain ⟨n, rfl, rfl⟩ := m
    obtain ⟨n', rfl, rfl⟩ := m'
    rw [(split_dec s1 s1 et).1]
  | mac b =>
    obtain ⟨n, rfl, rfl⟩ := m
    obtain ⟨n', rfl, rfl⟩ := m'
    rw [(split_dec s2 s2 et).1]
  | _ => exact m.trans m'.symm

/-- The five words of an Ascon state. -/
def words (s : V5 W64) : List W64 := s.toList

/-- ascon-hash: the text of a core, and of a reader, determines its whole state. -/
theorem C65_ascon_violated (o : Printed) (ho : o.ascon = true) (s s' : V5 W64) (h : o.debug (words s) = o.debug (words s')) : s = s' := by
  have inj : ∀ s s' : V5 W64, words s = words s' → s = s' := by
    intro s s' e
    cases s; cases s'
    simpa [words, V5.toList] using e
  cases o with
  | core c => cases c with
    | plain => cases ho
    | skein => cases ho
    | asconHash => exact inj _ _ (frame_core rfl h)
    | asconXof => exact inj _ _ (frame_core rfl h)
  | asconReader => exact inj _ _ (frame_core rfl h)
  | _ => cases ho

/-- So a printed core that has absorbed one block since a known state gives the block away (for every injective permutation). -/
theorem C65_ascon_block (P : V5 W64 → V5 W64) (hP : Function.Injective P) (o : Printed) (ho : o.ascon = true) (s : V5 W64) (b b' : Bytes)
    (hb : b.length = 8) (hb' : b'.length = 8)
    (h : o.debug (words (Ascon.absorbBlock P s b)) = o.debug (words (Ascon.absorbBlock P s b'))) : b = b' := by
  have e := hP (C65_ascon_violated o ho _ _ h)
  have e0 : s.x0 ^^^ BitVec.ofNat 64 (ofLE b) = s.x0 ^^^ BitVec.ofNat 64 (ofLE b') := congrArg V5.x0 e
  have e1 := congrArg BitVec.toNat ((BitVec.xor_right_inj s.x0).mp e0)
  have l1 : ofLE b < 2 ^ 64 := by have := ofLE_lt b; rw [hb] at this; exact this
  have l2 : ofLE b' < 2 ^ 64 := by have := ofLE_lt b'; rw [hb'] at this; exact this
  simp only [BitVec.toNat_ofNat, Nat.mod_eq_of_lt l1, Nat.mod_eq_of_lt l2] at e1
  rw [← leBytes_ofLE b, ← leBytes_ofLE b', hb, hb', e1]

/-! Concrete cases. -/
example : (Hash.ct .sha512 28).name = "Sha512_28".toList ∧ (Hash.ct .sha512 28).debug = "Sha512_28 { .. }".toList := by decide +kernel
example : (Hash.ct .sha256 28).name ≠ (Hash.ct .sha512 28).name ∧ (Hash.fixed (.plain .sha3_256)).name ≠ (Hash.ct .sha256 3).name := by decide +kernel
example : (Hash.ct .sha256 28).Proper ∧ (Hash.fixed (.plain .tiger2)).Proper ∧ ¬ (Hash.fixed (.plain .sha256)).Proper :=
  ⟨rfl, rfl, fun h => by cases h⟩
example : (Printed.core (.skein .w512 32)).debug [] = "Skein512Core<32> { .. }".toList ∧
    (Printed.mac true 64).debug [] = "Blake2bMac64 { ... }".toList ∧ (Printed.core (.plain (.gost94 .ua))).debug [] = "Gost28147UACore { .. }".toList := by
  decide +kernel
example : (Printed.core .asconHash).debug (words ⟨1, 2, 3, 40, 18446744073709551615⟩) =
    ("AsconCore { state: HashCore { state: State { x: [1, 2, 3, 40, 18446744073709551615] }, phantom: PhantomData<ascon_hash::Parameters> } }").toList := by
  decide +kernel
example : (Printed.core .asconHash).debug (words ⟨1, 2, 3, 4, 5⟩) ≠ (Printed.core .asconHash).debug (words ⟨1, 2, 3, 4, 6⟩) :=
  fun h => absurd (C65_ascon_violated (.core .asconHash) rfl _ _ h) (by decide)

end Hashes.Names
