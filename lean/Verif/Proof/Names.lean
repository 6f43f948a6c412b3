import Verif.Model.Names
/- Texts: splitting at the end of a number, cores told apart by how their text begins. -/
namespace Hashes.Names

theorem dec_digit (n : Nat) : ∀ c ∈ dec n, c.isDigit := fun _ hc => Nat.isDigit_of_mem_toDigits (by decide) (by decide) hc
theorem dec_inj {n n' : Nat} (h : dec n = dec n') : n = n' := by
  rw [← Nat.ofDigitChars_ten_toDigits (n := n), ← Nat.ofDigitChars_ten_toDigits (n := n')]
  exact congrArg (Nat.ofDigitChars 10 · 0) h

/-- `t` does not begin with a digit. -/
def Stop (t : Text) : Prop := ∀ c ∈ t.head?, c.isDigit = false

theorem takeWhile_dec (n : Nat) {t : Text} (h : Stop t) : (dec n ++ t).takeWhile Char.isDigit = dec n := by
  rw [List.takeWhile_append_of_pos (dec_digit n)]
  cases t with
  | nil => simp
  | cons c t => rw [List.takeWhile_cons_of_neg (by simp [h c rfl])]; simp

/-- A number followed by something that does not begin with a digit. -/
theorem split_dec {n n' : Nat} {t t' : Text} (ht : Stop t) (ht' : Stop t') (h : dec n ++ t = dec n' ++ t') : n = n' ∧ t = t' := by
  have e : dec n = dec n' := by rw [← takeWhile_dec n ht, ← takeWhile_dec n' ht', h]
  exact ⟨dec_inj e, List.append_cancel_left (by rwa [← e] at h)⟩

/-- The rest of a printed list of words and what follows it. -/
theorem split_tail {l l' : List W64} {t t' : Text}
    (h : (l.flatMap fun y => ", ".toList ++ dec y.toNat) ++ ']' :: t = (l'.flatMap fun y => ", ".toList ++ dec y.toNat) ++ ']' :: t') :
    l = l' ∧ t = t' := by
  have stop : ∀ (l : List W64) (t : Text), Stop ((l.flatMap fun y => ", ".toList ++ dec y.toNat) ++ ']' :: t) := by
    intro l t c hc
    cases l with
    | nil => cases Option.some.inj hc; rfl
    | cons => cases Option.some.inj hc; rfl
  induction l generalizing l' with
  | nil => cases l' with
    | nil => exact ⟨rfl, by simpa using h⟩
    | cons => simp at h
  | cons a l ih => cases l' with
    | nil => simp at h
    | cons a' l' =>
      simp only [List.flatMap_cons, List.append_assoc] at h
      have h := List.append_cancel_left h
      obtain ⟨h1, h2⟩ := split_dec (stop _ _) (stop _ _) h
      obtain ⟨h3, h4⟩ := ih h2
      exact ⟨by rw [BitVec.eq_of_toNat_eq h1, h3], h4⟩

theorem split_words {x x' : List W64} {t t' : Text} (h : showWords x ++ t = showWords x' ++ t') (hx : x.length = x'.length) : x = x' ∧ t = t' := by
  have stop : ∀ (l : List W64) (t : Text), Stop ((l.flatMap fun y => ", ".toList ++ dec y.toNat) ++ ']' :: t) := by
    intro l t c hc
    cases l with
    | nil => cases Option.some.inj hc; rfl
    | cons => cases Option.some.inj hc; rfl
  cases x with
  | nil => cases x' with
    | nil => exact ⟨rfl, List.append_cancel_left h⟩
    | cons => cases hx
  | cons a l => cases x' with
    | nil => cases hx
    | cons a' l' =>
      simp only [showWords, List.cons_append, List.append_assoc, List.nil_append] at h
      obtain ⟨h1, h2⟩ := split_dec (stop _ _) (stop _ _) (List.cons.inj h).2
      obtain ⟨h3, h4⟩ := split_tail h2
      exact ⟨by rw [BitVec.eq_of_toNat_eq h1, h3], h4⟩

theorem frame_words {a b c d e : Text} {x x' : List W64} (hx : x.length = x'.length)
    (h : d ++ (a ++ showWords x ++ b ++ c) ++ e = d ++ (a ++ showWords x' ++ b ++ c) ++ e) : x = x' := by
  have h := List.append_cancel_left (List.append_cancel_right h)
  simp only [List.append_assoc] at h
  exact (split_words (List.append_cancel_left h) hx).1

theorem frame_core {d p e : Text} {x x' : List W64} (hx : x.length = x'.length)
    (h : d ++ showHashCore p x ++ e = d ++ showHashCore p x' ++ e) : x = x' := by
  unfold showHashCore at h
  generalize "HashCore { state: State { x: ".toList = a at h
  generalize " }, phantom: PhantomData<".toList = b at h
  generalize "> }".toList = c at h
  rw [List.append_assoc (a ++ showWords x ++ b), List.append_assoc (a ++ showWords x' ++ b)] at h
  exact frame_words hx h

theorem stop_cons {c : Char} {t : Text} (h : c.isDigit = false) : Stop (c :: t) := fun _ hd => by cases Option.some.inj hd; exact h

/-! ### The finite part -/

def plains : List Plain := [.belt, .blake2b, .blake2s, .fsb160, .fsb224, .fsb256, .fsb384, .fsb512, .gost94 .cryptoPro, .gost94 .s2015,
  .gost94 .test, .gost94 .ua, .groestlShort, .groestlLong, .jh, .k12, .kupynaShort, .kupynaLong, .md2, .md4, .md5, .ripemd128, .ripemd160,
  .ripemd256, .ripemd320, .sha1, .sha256, .sha512, .keccak224, .keccak256, .keccak384, .keccak512, .keccak256Full, .sha3_224, .sha3_256,
  .sha3_384, .sha3_512, .shake128, .shake256, .turboShake128, .turboShake256, .cShake128, .cShake256, .shabal, .sm3, .streebog, .tiger,
  .tiger2, .whirlpool]
theorem mem_plains (c : Plain) : c ∈ plains := by
  cases c with
  | gost94 p => cases p <;> decide
  | _ => decide
def wides : List Wide := [.w256, .w512, .w1024]
theorem mem_wides (w : Wide) : w ∈ wides := by cases w <;> decide

theorem plain_name : ∀ c ∈ plains, ∀ c' ∈ plains, c.name = c'.name → c = c' := by decide +kernel
theorem wide_name : ∀ w ∈ wides, ∀ w' ∈ wides, w.name = w'.name → w = w' := by decide +kernel
theorem plain_wide : ∀ c ∈ plains, ∀ w ∈ wides, c.name ≠ w.name := by decide +kernel
theorem plain_ascon : ∀ c ∈ plains, c.name ≠ Core.asconHash.name ∧ c.name ≠ Core.asconXof.name := by decide +kernel
theorem wide_ascon : ∀ w ∈ wides, w.name ≠ Core.asconHash.name ∧ w.name ≠ Core.asconXof.name := by decide +kernel

/-- No name is that of a variable-output core with a number appended. -/
theorem no_prefix : (∀ c ∈ plains, c.variable = true → ∀ c' ∈ plains, ¬ (c.name ++ ['_']) <+: c'.name) ∧
    (∀ c ∈ plains, ∀ w ∈ wides, ¬ (c.name ++ ['_']) <+: w.name) ∧
    ∀ c ∈ plains, ¬ (c.name ++ ['_']) <+: Core.asconHash.name ∧ ¬ (c.name ++ ['_']) <+: Core.asconXof.name := by decide +kernel

theorem core_name {c c' : Core} (h : c.name = c'.name) : c = c' ∨ ∃ w n n', c = .skein w n ∧ c' = .skein w n' := by
  cases c with
  | plain c => cases c' with
    | plain c' => exact .inl (congrArg _ (plain_name c (mem_plains c) c' (mem_plains c') h))
    | skein w n => exact absurd h (plain_wide c (mem_plains c) w (mem_wides w))
    | asconHash => exact absurd h (plain_ascon c (mem_plains c)).1
    | asconXof => exact absurd h (plain_ascon c (mem_plains c)).2
  | skein w n => cases c' with
    | plain c => exact absurd h.symm (plain_wide c (mem_plains c) w (mem_wides w))
    | skein w' n' =>
      cases wide_name w (mem_wides w) w' (mem_wides w') h
      exact .inr ⟨w, n, n', rfl, rfl⟩
    | asconHash => exact absurd h (wide_ascon w (mem_wides w)).1
    | asconXof => exact absurd h (wide_ascon w (mem_wides w)).2
  | asconHash => cases c' with
    | plain c => exact absurd h.symm (plain_ascon c (mem_plains c)).1
    | skein w n => exact absurd h.symm (wide_ascon w (mem_wides w)).1
    | asconHash => exact .inl rfl
    | asconXof => exact absurd h (by decide +kernel)
  | asconXof => cases c' with
    | plain c => exact absurd h.symm (plain_ascon c (mem_plains c)).2
    | skein w n => exact absurd h.symm (wide_ascon w (mem_wides w)).2
    | asconHash => exact absurd h (by decide +kernel)
    | asconXof => exact .inl rfl

theorem ct_ne {c : Plain} (hc : c.variable = true) (c' : Core) (n : Nat) : c.name ++ '_' :: dec n ≠ c'.name := fun h => by
  have p : (c.name ++ ['_']) <+: c'.name := ⟨dec n, by rw [← h]; simp⟩
  cases c' with
  | plain c' => exact no_prefix.1 c (mem_plains c) hc c' (mem_plains c') p
  | skein w n => exact no_prefix.2.1 c (mem_plains c) w (mem_wides w) p
  | asconHash => exact (no_prefix.2.2 c (mem_plains c)).1 p
  | asconXof => exact (no_prefix.2.2 c (mem_plains c)).2 p

/-- How the text of a core begins. -/
inductive Head
  | plain (c : Plain) | skein (w : Wide) | asconHash | asconXof | asconReader | mac (b : Bool) | sha1Checked
deriving DecidableEq
def heads : List Head := plains.map .plain ++ wides.map .skein ++ [.asconHash, .asconXof, .asconReader, .mac true, .mac false, .sha1Checked]
theorem mem_heads (h : Head) : h ∈ heads := by
  cases h with
  | plain c => exact List.mem_append_left _ (List.mem_append_left _ (List.mem_map_of_mem (mem_plains c)))
  | skein w => exact List.mem_append_left _ (List.mem_append_right _ (List.mem_map_of_mem (mem_wides w)))
  | mac b => cases b <;> exact List.mem_append_right _ (by decide)
  | _ => exact List.mem_append_right _ (by decide)
def Head.text : Head → Text
  | .plain c => c.debug
  | .skein w => w.name ++ "Core<".toList
  | .asconHash => "AsconCore { state: ".toList
  | .asconXof => "AsconXofCore { state: ".toList
  | .asconReader => "AsconXofReaderCore { hasher: ".toList
  | .mac b => if b then "Blake2bMac".toList else "Blake2sMac".toList
  | .sha1Checked => sha1CheckedDebug
theorem head_text : ∀ h ∈ heads, ∀ h' ∈ heads, h.text <+: h'.text → h = h' := by decide +kernel
theorem head_inj {h h' : Head} {t t' : Text} (e : h.text ++ t = h'.text ++ t') : h = h' := by
  rcases List.prefix_or_prefix_of_prefix (l₃ := h.text ++ t) ⟨t, rfl⟩ (show h'.text <+: _ from ⟨t', e.symm⟩) with p | p
  · exact head_text h (mem_heads h) h' (mem_heads h') p
  · exact (head_text h' (mem_heads h') h (mem_heads h) p).symm

end Hashes.Names
