import Verif.Props.Blake2
/- C58: BLAKE2 objects made with different parameters are different. -/
namespace Hashes
open Blake2

theorem Blake2.start_inj {n : Nat} (V : Spec.Blake2.Variant (8 * n)) {P P' : Bytes} (h : P.length = 8 * n) (h' : P'.length = 8 * n)
    (e : Spec.Blake2.start V P = Spec.Blake2.start V P') : P = P' := by
  have hw : (List.range 8).map (wordLE (8 * n) P) = (List.range 8).map (wordLE (8 * n) P') := by
    refine List.map_congr_left fun i hi => ?_
    have := congrArg (fun l => l[i]?) e
    simp only [Spec.Blake2.start, List.getElem?_map, List.getElem?_range (List.mem_range.1 hi), Option.map_some,
      Option.some.injEq] at this
    exact BitVec.xor_right_inj _ |>.1 this
  have hb := congrArg bytesOfWordsLE hw
  rw [bytesOfWordsLE_range (by omega) _ _ (by omega), bytesOfWordsLE_range (by omega) _ _ (by omega)] at hb
  rwa [List.take_of_length_le (by omega), List.take_of_length_le (by omega)] at hb

theorem Blake2.paramBlock_inj {n : Nat} (h4 : 4 ≤ 4 * n) (hn : 8 * n < 256) {salt persona salt' persona' : Bytes} {kk nn kk' nn' : Nat}
    (h1 : kk ≤ 8 * n) (h2 : nn ≤ 8 * n) (h3 : salt.length ≤ 2 * n) (h5 : persona.length ≤ 2 * n)
    (h1' : kk' ≤ 8 * n) (h2' : nn' ≤ 8 * n) (h3' : salt'.length ≤ 2 * n) (h5' : persona'.length ≤ 2 * n)
    (e : Spec.Blake2.paramBlock (8 * n) salt persona kk nn = Spec.Blake2.paramBlock (8 * n) salt' persona' kk' nn') :
    kk = kk' ∧ nn = nn' ∧ Spec.Blake2.zeroPad (2 * n) salt = Spec.Blake2.zeroPad (2 * n) salt' ∧
      Spec.Blake2.zeroPad (2 * n) persona = Spec.Blake2.zeroPad (2 * n) persona' := by
  simp only [Spec.Blake2.paramBlock, show 8 * n / 4 = 2 * n by omega] at e
  obtain ⟨e, e4⟩ := List.append_inj' e (by rw [length_zeroPad h5, length_zeroPad h5'])
  obtain ⟨e, e3⟩ := List.append_inj' e (by rw [length_zeroPad h3, length_zeroPad h3'])
  obtain ⟨e, -⟩ := List.append_inj' e rfl
  simp only [List.cons.injEq, and_true] at e
  have a := congrArg BitVec.toNat e.1
  have b := congrArg BitVec.toNat e.2
  simp only [BitVec.toNat_ofNat] at a b
  exact ⟨by omega, by omega, e3, e4⟩

theorem Blake2.params_inj {n : Nat} {c : Cfg (8 * n)} {V : Spec.Blake2.Variant (8 * n)} (g : Good n c V) (hn : 8 * n < 256)
    {salt persona salt' persona' : Bytes} {kk nn kk' nn' : Nat} {s : State (8 * n)}
    (h : newWithParams c salt persona kk nn = some s) (h' : newWithParams c salt' persona' kk' nn' = some s) :
    kk = kk' ∧ nn = nn' ∧ Spec.Blake2.zeroPad (2 * n) salt = Spec.Blake2.zeroPad (2 * n) salt' ∧
      Spec.Blake2.zeroPad (2 * n) persona = Spec.Blake2.zeroPad (2 * n) persona' := by
  rcases params_eq g.h4 g.M g.hb g.head salt persona kk nn with ⟨-, h0⟩ | ⟨⟨a1, a2, a3, a4⟩, s1, b1, -, -, b2⟩
  · rw [h0] at h; cases h
  rcases params_eq g.h4 g.M g.hb g.head salt' persona' kk' nn' with ⟨-, h0⟩ | ⟨⟨a1', a2', a3', a4'⟩, s2, b1', -, -, b2'⟩
  · rw [h0] at h'; cases h'
  rw [b1] at h; cases h
  rw [b1'] at h'; cases h'
  have hlen : ∀ {x y : Bytes} {k m : Nat}, x.length ≤ 2 * n → y.length ≤ 2 * n →
      (Spec.Blake2.paramBlock (8 * n) x y k m).length = 8 * n := by
    intro x y k m hx hy
    have := g.h4
    simp only [Spec.Blake2.paramBlock, show 8 * n / 4 = 2 * n by omega, List.length_append, length_zeroPad hx, length_zeroPad hy,
      List.length_replicate, List.length_cons, List.length_nil]
    omega
  exact paramBlock_inj g.h4 hn a1 a2 a3 a4 a1' a2' a3' a4' (start_inj V (hlen a3 a4) (hlen a3' a4') (b2.symm.trans b2'))

theorem Blake2.params_congr {n : Nat} {c : Cfg (8 * n)} {V : Spec.Blake2.Variant (8 * n)} (g : Good n c V)
    {salt persona salt' persona' : Bytes} {kk nn : Nat} {s s' : State (8 * n)}
    (h : newWithParams c salt persona kk nn = some s) (h' : newWithParams c salt' persona' kk nn = some s')
    (e1 : Spec.Blake2.zeroPad (2 * n) salt = Spec.Blake2.zeroPad (2 * n) salt')
    (e2 : Spec.Blake2.zeroPad (2 * n) persona = Spec.Blake2.zeroPad (2 * n) persona') : s = s' := by
  rcases params_eq g.h4 g.M g.hb g.head salt persona kk nn with ⟨-, h0⟩ | ⟨-, s1, b1, t1, u1, b2⟩
  · rw [h0] at h; cases h
  rcases params_eq g.h4 g.M g.hb g.head salt' persona' kk nn with ⟨-, h0⟩ | ⟨-, s2, b1', t2, u2, b2'⟩
  · rw [h0] at h'; cases h'
  rw [b1] at h; cases h
  rw [b1'] at h'; cases h'
  have e4 : 8 * n / 4 = 2 * n := by omega
  simp only [Spec.Blake2.paramBlock, e4, e1, e2] at b2 b2'
  have e := b2.trans b2'.symm
  have e : s.h = s'.h := by
    revert e
    generalize s.h = a
    generalize s'.h = b
    intro e
    obtain ⟨⟨_, _, _, _⟩, ⟨_, _, _, _⟩⟩ := a
    obtain ⟨⟨_, _, _, _⟩, ⟨_, _, _, _⟩⟩ := b
    simp only [hl, V4.toList, List.cons_append, List.nil_append, List.cons.injEq] at e
    simp [e]
  cases s; cases s'
  simp only at *
  subst t1 t2 u1 u2 e
  rfl

/-- C58. Two BLAKE2 states made by `new_with_params` are equal exactly when key length, output length and the zero-extended salt and
personalisation agree. -/
theorem C58_state :
    (∀ (salt persona salt' persona' : Bytes) (kk nn kk' nn' : Nat) (s s' : State 64),
      newWithParams cfgB salt persona kk nn = some s → newWithParams cfgB salt' persona' kk' nn' = some s' →
      (s = s' ↔ kk = kk' ∧ nn = nn' ∧ Spec.Blake2.zeroPad 16 salt = Spec.Blake2.zeroPad 16 salt' ∧
        Spec.Blake2.zeroPad 16 persona = Spec.Blake2.zeroPad 16 persona')) ∧
    (∀ (salt persona salt' persona' : Bytes) (kk nn kk' nn' : Nat) (s s' : State 32),
      newWithParams cfgS salt persona kk nn = some s → newWithParams cfgS salt' persona' kk' nn' = some s' →
      (s = s' ↔ kk = kk' ∧ nn = nn' ∧ Spec.Blake2.zeroPad 8 salt = Spec.Blake2.zeroPad 8 salt' ∧
        Spec.Blake2.zeroPad 8 persona = Spec.Blake2.zeroPad 8 persona')) := by
  refine ⟨fun salt persona salt' persona' kk nn kk' nn' s s' h h' => ⟨?_, ?_⟩, fun salt persona salt' persona' kk nn kk' nn' s s' h h' => ⟨?_, ?_⟩⟩
  · rintro rfl; exact params_inj goodB (by decide) h h'
  · rintro ⟨rfl, rfl, e1, e2⟩; exact params_congr goodB h h' e1 e2
  · rintro rfl; exact params_inj goodS (by decide) h h'
  · rintro ⟨rfl, rfl, e1, e2⟩; exact params_congr goodS h h' e1 e2

theorem Blake2.mac_inj {n : Nat} {c : Cfg (8 * n)} {V : Spec.Blake2.Variant (8 * n)} (g : Good n c V) (hn : 8 * n < 256)
    {out out' : Nat} {key key' : Option Bytes} {salt persona salt' persona' : Bytes} {m : Mac (8 * n)}
    (h : newWithSaltAndPersonal c out key salt persona = .ok m) (h' : newWithSaltAndPersonal c out' key' salt' persona' = .ok m) :
    key = key' ∧ out = out' ∧ Spec.Blake2.zeroPad (2 * n) salt = Spec.Blake2.zeroPad (2 * n) salt' ∧
      Spec.Blake2.zeroPad (2 * n) persona = Spec.Blake2.zeroPad (2 * n) persona' := by
  obtain ⟨s, a1, a2, a3⟩ := newSalt_ok g h
  obtain ⟨s', b1, b2, b3⟩ := newSalt_ok g h'
  have hs : s = s' := by
    rcases a3 with ⟨-, rfl⟩ | ⟨_, -, -, rfl⟩ <;> rcases b3 with ⟨-, e⟩ | ⟨_, -, -, e⟩ <;> exact congrArg Mac.core e
  subst hs
  obtain ⟨e1, e2, e3, e4⟩ := params_inj g hn a1 b1
  refine ⟨?_, e2, e3, e4⟩
  rcases a3 with ⟨rfl, rfl⟩ | ⟨k, rfl, -, rfl⟩ <;> rcases b3 with ⟨rfl, e⟩ | ⟨k', rfl, -, e⟩
  · rfl
  · have := congrArg Mac.keyBlock e; cases this
  · have := congrArg Mac.keyBlock e; cases this
  · have := congrArg Mac.keyBlock e
    simp only [Option.some.injEq, Option.getD_some] at this e1 a2 b2
    rw [padded_eq a2, padded_eq b2, Spec.Blake2.zeroPad, Spec.Blake2.zeroPad] at this
    rw [(List.append_inj this e1).1]

/-- C58. MAC objects made by `new_with_salt_and_personal` with different keys (of any lengths, or one without a key), different output
sizes, or different zero-extended salts or personalisations are different; in particular a key is never confused with its zero-extension. -/
theorem C58_mac :
    (∀ (out out' : Nat) (key key' : Option Bytes) (salt persona salt' persona' : Bytes) (m : Mac 64),
      newWithSaltAndPersonal cfgB out key salt persona = .ok m → newWithSaltAndPersonal cfgB out' key' salt' persona' = .ok m →
      key = key' ∧ out = out' ∧ Spec.Blake2.zeroPad 16 salt = Spec.Blake2.zeroPad 16 salt' ∧
        Spec.Blake2.zeroPad 16 persona = Spec.Blake2.zeroPad 16 persona') ∧
    (∀ (out out' : Nat) (key key' : Option Bytes) (salt persona salt' persona' : Bytes) (m : Mac 32),
      newWithSaltAndPersonal cfgS out key salt persona = .ok m → newWithSaltAndPersonal cfgS out' key' salt' persona' = .ok m →
      key = key' ∧ out = out' ∧ Spec.Blake2.zeroPad 8 salt = Spec.Blake2.zeroPad 8 salt' ∧
        Spec.Blake2.zeroPad 8 persona = Spec.Blake2.zeroPad 8 persona') :=
  ⟨fun _ _ _ _ _ _ _ _ _ h h' => mac_inj goodB (by decide) h h', fun _ _ _ _ _ _ _ _ _ h h' => mac_inj goodS (by decide) h h'⟩

/-- Concrete case: the salts 01 and 01 00 are the same parameter, the keys 01 and 01 00 are not. -/
example : newWithParams cfgB [1] [] 0 64 = newWithParams cfgB [1, 0] [] 0 64 ∧ newWithParams cfgB [1] [] 0 64 ≠ newWithParams cfgB [] [1] 0 64 ∧
    newWithSaltAndPersonal cfgB 64 (some [1]) [] [] ≠ newWithSaltAndPersonal cfgB 64 (some [1, 0]) [] [] := by decide +kernel

end Hashes
