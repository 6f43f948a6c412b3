import Verif.Proof.Wide.Basic
import Verif.Proof.Sponge
import Verif.Proof.SpongeBits
import Verif.Proof.CShake
import Verif.Proof.Ascon
import Verif.Proof.Perm.Close
import Verif.Props.Padding
import Verif.Props.CShake
/- The sponges: the padding, the digest as an output function of the absorbed blocks, and what one step determines. -/
namespace Hashes
open Spec

theorem spongePad_eq {rate : Nat} (h0 : 0 < rate) {D : Byte} (hD : D.toNat < 128) (m : Bytes) :
    spongePad rate D m = m ++ Sha3.finish D (rate - m.length % rate) := by
  have hlt := Nat.mod_lt m.length h0
  obtain ⟨q, h1, h2, -⟩ := Sha3.finish_clear hD m (rate - 1 - m.length % rate)
  rw [show rate - m.length % rate = rate - 1 - m.length % rate + 1 by omega, h1, spongePad]
  congr 1
  rw [h2, List.dropLast_concat]

theorem length_spongePad {rate : Nat} (h0 : 0 < rate) {D : Byte} (hD : D.toNat < 128) (m : Bytes) : rate ∣ (spongePad rate D m).length := by
  have hlt := Nat.mod_lt m.length h0
  have := Nat.div_add_mod m.length rate
  rw [spongePad_eq h0 hD, List.length_append, Sha3.length_finish]
  exact ⟨m.length / rate + 1, by rw [Nat.mul_add]; omega⟩

theorem spongePad_inj {rate : Nat} {D D' : Byte} (hD : D.toNat < 128 ∧ D ≠ 0) (hD' : D'.toNat < 128 ∧ D' ≠ 0) {m m' : Bytes}
    (h : spongePad rate D m = spongePad rate D' m') : m = m' ∧ D = D' := by
  have cl : ∀ x y : Byte, x.toNat < 128 → y.toNat < 128 → x ||| 0x80 = y ||| 0x80 → x = y := by decide +kernel
  obtain ⟨q, -, h2, h3⟩ := Sha3.finish_clear hD.1 m (rate - 1 - m.length % rate)
  obtain ⟨q', -, h2', h3'⟩ := Sha3.finish_clear hD'.1 m' (rate - 1 - m'.length % rate)
  simp only [spongePad] at h
  obtain ⟨e1, e2⟩ := List.append_inj' h rfl
  have e2 := cl _ _ h3 h3' (List.cons.inj e2).1
  rw [h2, h2', List.dropLast_concat, List.dropLast_concat] at e1
  have fin : m ++ [D] ++ List.replicate (rate - 1 - m.length % rate) 0 = m' ++ [D'] ++ List.replicate (rate - 1 - m'.length % rate) 0 := by
    rw [h2, h2', e1, e2]
  have := delim_inj (t := []) (t' := []) hD.2 hD'.2 rfl (by simpa using fin)
  exact ⟨this.1, this.2.1⟩

namespace Sha3

theorem chunks_spongePad {rate : Nat} (h0 : 0 < rate) {D : Byte} (hD : D.toNat < 128) (m : Bytes) {b : BlockBuffer} (wf : b.WF .eager rate)
    (hc : b.content = m.drop (m.length / rate * rate)) :
    chunks rate (spongePad rate D m) = blocks rate (m.length / rate) m ++ [lastBlock rate b D] := by
  have hlt : b.pos < rate := wf.2
  have hcl := wf.length_content
  have hdm := Nat.div_add_mod' m.length rate
  have hp : b.pos = m.length % rate := by rw [← hcl, hc, List.length_drop]; omega
  rw [spongePad_eq h0 hD, lastBlock_eq wf, hc, hp, chunks_tail h0, chunks_single h0 (by simp; omega)]

/-- The lanes that no block touches: `absorb_block`, /repo/sha3/src/state.rs:18-26, reaches the first `rate / 8` only. -/
def capacity (rate : Nat) (s : Lanes) : Lanes := s.drop (rate / 8)

theorem xorLanes_drop (bs : List Bytes) (s : Lanes) : (xorLanes bs s).drop bs.length = s.drop bs.length := by
  induction bs generalizing s with
  | nil => cases s <;> rfl
  | cons b bs ih => cases s with
    | nil => rfl
    | cons w s => simp only [xorLanes, List.length_cons, List.drop_succ_cons, ih]

theorem xorLanes_inj_left {bs bs' : List Bytes} (hb : ∀ b ∈ bs, b.length = 8) (hb' : ∀ b ∈ bs', b.length = 8) (hl : bs.length = bs'.length)
    {s : Lanes} (hs : bs.length ≤ s.length) (h : xorLanes bs s = xorLanes bs' s) : bs = bs' := by
  induction bs generalizing bs' s with
  | nil => exact (List.eq_nil_of_length_eq_zero hl.symm).symm
  | cons b bs ih =>
    cases bs' with
    | nil => cases hl
    | cons b' bs' =>
      cases s with
      | nil => simp at hs
      | cons w s =>
        simp only [xorLanes, List.cons.injEq] at h
        have e : BitVec.ofNat 64 (ofLE b) = BitVec.ofNat 64 (ofLE b') := by
          have := congrArg (fun x => w ^^^ x) h.1
          simpa only [← BitVec.xor_assoc, BitVec.xor_self, BitVec.zero_xor] using this
        have e := congrArg BitVec.toNat e
        have l : b.length = 8 := hb b List.mem_cons_self
        have l' : b'.length = 8 := hb' b' List.mem_cons_self
        have k : ofLE b < 2 ^ 64 := by have := ofLE_lt b; rw [l] at this; exact this
        have k' : ofLE b' < 2 ^ 64 := by have := ofLE_lt b'; rw [l'] at this; exact this
        rw [BitVec.toNat_ofNat, BitVec.toNat_ofNat, Nat.mod_eq_of_lt k, Nat.mod_eq_of_lt k'] at e
        have e : b = b' := by
          have := congrArg (leBytes 8) e
          rwa [leBytes_ofLE' l, leBytes_ofLE' l'] at this
        rw [e, ih (fun b h => hb b (List.mem_cons_of_mem _ h)) (fun b h => hb' b (List.mem_cons_of_mem _ h)) (Nat.succ.inj hl)
          (Nat.le_of_succ_le_succ hs) h.2]

theorem absorb_cap {f : Lanes → Lanes} (hinj : ∀ s t : Lanes, s.length = 25 → t.length = 25 → f s = f t → s = t) {rate : Nat}
    {s t : Lanes} (hs : s.length = 25) (ht : t.length = 25) {a b : Bytes} (ha : a.length = rate) (hb : b.length = rate)
    (h : absorbBlock f s a = absorbBlock f t b) : capacity rate s = capacity rate t := by
  have e := hinj _ _ (by rw [length_xorLanes, hs]) (by rw [length_xorLanes, ht]) h
  have e1 := xorLanes_drop (chunks 8 a) s
  have e2 := xorLanes_drop (chunks 8 b) t
  rw [length_chunks, ha] at e1
  rw [length_chunks, hb] at e2
  rw [capacity, capacity, ← e1, ← e2, e]

theorem absorb_block {f : Lanes → Lanes} (hinj : ∀ s t : Lanes, s.length = 25 → t.length = 25 → f s = f t → s = t) {rate : Nat}
    (h8 : 8 ∣ rate) (hr : rate ≤ 200) {s : Lanes} (hs : s.length = 25) {a b : Bytes} (ha : a.length = rate) (hb : b.length = rate)
    (h : absorbBlock f s a = absorbBlock f s b) : a = b := by
  have e := hinj _ _ (by rw [length_xorLanes, hs]) (by rw [length_xorLanes, hs]) h
  have := xorLanes_inj_left (fun _ h => length_of_mem_chunks h) (fun _ h => length_of_mem_chunks h)
    (by rw [length_chunks, length_chunks, ha, hb]) (by rw [length_chunks, ha, hs]; omega) e
  have := congrArg List.flatten this
  rwa [chunks_flatten (by rw [ha]; exact h8), chunks_flatten (by rw [hb]; exact h8)] at this

/-- The input blocks of a sponge with rate `rate` and separation byte `D`. -/
theorem collide {f : Lanes → Lanes} (hf : Perm f) (hinj : ∀ s t : Lanes, s.length = 25 → t.length = 25 → f s = f t → s = t) {rate : Nat}
    (h0 : 0 < rate) (h8 : 8 ∣ rate) (hr : rate ≤ 200) {D D' : Byte} (hD : D.toNat < 128 ∧ D ≠ 0) (hD' : D'.toNat < 128 ∧ D' ≠ 0)
    {m m' : Bytes} (hne : (m, D) ≠ (m', D')) {ω : Type} {out : Lanes → ω}
    (h : out ((chunks rate (spongePad rate D m)).foldl (absorbBlock f) zero) = out ((chunks rate (spongePad rate D' m')).foldl (absorbBlock f) zero)) :
    SpongeCollide (absorbBlock f) zero (capacity rate) out (chunks rate (spongePad rate D m)) (chunks rate (spongePad rate D' m')) := by
  have split : ∀ (D : Byte) (m : Bytes), D.toNat < 128 → ∃ p a, chunks rate (spongePad rate D m) = p ++ [a] ∧ a.length = rate := by
    intro D m hD
    have hlt := Nat.mod_lt m.length h0
    have hdm := Nat.div_add_mod' m.length rate
    rw [spongePad_eq h0 hD, chunks_tail h0]
    refine ⟨_, _, congrArg _ (chunks_single h0 ?_), ?_⟩ <;> (simp; omega)
  have ne : chunks rate (spongePad rate D m) ≠ chunks rate (spongePad rate D' m') := fun e => by
    have := congrArg List.flatten e
    rw [chunks_flatten (length_spongePad h0 hD.1 m), chunks_flatten (length_spongePad h0 hD'.1 m')] at this
    obtain ⟨rfl, rfl⟩ := spongePad_inj hD hD' this
    exact hne rfl
  obtain ⟨p, a, e1, ha⟩ := split D m hD.1
  obtain ⟨q, b, e2, hb⟩ := split D' m' hD'.1
  rw [e1, e2] at h ne ⊢
  have l : ∀ p : List Bytes, (p.foldl (absorbBlock f) zero).length = 25 := fun p => length_updateBlocks hf p (by simp [zero])
  exact sponge_collide (absorb_cap hinj (l p) (l q) ha hb) (absorb_block hinj h8 hr (l p) ha hb) ne h

theorem inj24 (s t : Lanes) (hs : s.length = 25) (ht : t.length = 25) (h : f24 s = f24 t) : s = t := by
  rw [f24_eq s hs, f24_eq t ht] at h
  exact Hashes.Perm.keccakP_inj 24 hs ht h

theorem inj12 (s t : Lanes) (hs : s.length = 25) (ht : t.length = 25) (h : f12 s = f12 t) : s = t := by
  rw [f12_eq s hs, f12_eq t ht] at h
  exact Hashes.Perm.keccakP_inj 12 hs ht h

/-! The digests -/

theorem fixed_wide {f : Lanes → Lanes} (hf : Perm f) {rate : Nat} (h0 : 0 < rate) {D : Byte} (hD : D.toNat < 128) (n : Nat) (m : Bytes) :
    (fixed f n rate D).digest m = asBytes n ((chunks rate (spongePad rate D m)).foldl (absorbBlock f) zero) := by
  obtain ⟨b, h1, h2, -, h4⟩ := Core.digest_eager (fixed_lawful hf h0 n D) rfl m
  rw [h4]
  simp only [fixed] at h1 h2 ⊢
  rw [chunks_spongePad h0 hD m h1 h2, List.foldl_append]
  rfl

theorem shake_wide {f : Lanes → Lanes} (hf : Perm f) {rate : Nat} (h0 : 0 < rate) {D : Byte} (hD : D.toNat < 128) (m : Bytes) :
    (shake f rate D).digest m = (chunks rate (spongePad rate D m)).foldl (absorbBlock f) zero := by
  obtain ⟨b, h1, h2, -, h4⟩ := Core.digest_eager (shake_lawful hf h0 D) rfl m
  rw [h4]
  simp only [shake] at h1 h2 ⊢
  rw [chunks_spongePad h0 hD m h1 h2, List.foldl_append]
  rfl

theorem turbo_wide {f : Lanes → Lanes} (hf : Perm f) {rate : Nat} (h0 : 0 < rate) {d : Byte} {i : Turbo} (hi : Turbo.new d = some i) (m : Bytes) :
    (turbo f rate i).digest m = (chunks rate (spongePad rate d m)).foldl (absorbBlock f) zero := by
  obtain ⟨b, h1, h2, -, h4⟩ := Core.digest_eager (turbo_lawful hf h0 hi) rfl m
  rw [h4]
  simp only [turbo] at h1 h2 ⊢
  obtain ⟨rfl, hd⟩ := turbo_new hi
  rw [chunks_spongePad h0 hd m h1 h2, List.foldl_append]
  rfl

/-! cSHAKE -/

/-- The byte string that cSHAKE absorbs before padding, and the separation byte: `new_with_function_name`,
/repo/sha3/src/macros.rs:475-527. -/
def cshakeBytes (rate : Nat) (N S m : Bytes) : Bytes × Byte :=
  if N = [] ∧ S = [] then (m, 0x1f) else (paddedPrefix rate N S ++ m, 0x04)

theorem chunks_prefix {rate : Nat} (h0 : 0 < rate) {D : Byte} (hD : D.toNat < 128) {p : Bytes} (hp : rate ∣ p.length) (m : Bytes) :
    chunks rate (spongePad rate D (p ++ m)) = chunks rate p ++ chunks rate (spongePad rate D m) := by
  rw [spongePad_eq h0 hD, spongePad_eq h0 hD, List.append_assoc, chunks_append h0 _ hp, List.length_append]
  obtain ⟨k, hk⟩ := hp
  rw [hk, Nat.mul_add_mod]

theorem cshake_wide {f : Lanes → Lanes} (hf : Perm f) {rate : Nat} (h0 : 0 < rate) (hr : rate < 2 ^ 64) {N S : Bytes}
    (hN : 8 * N.length < 2 ^ 64) (hS : 8 * S.length < 2 ^ 64) (m : Bytes) :
    (cshake f rate N S).digest m =
      (chunks rate (spongePad rate (cshakeBytes rate N S m).2 (cshakeBytes rate N S m).1)).foldl (absorbBlock f) zero := by
  obtain ⟨b, h1, h2, -, h4⟩ := Core.digest_eager (cshake_lawful hf h0 N S) rfl m
  rw [h4]
  simp only [cshake] at h1 h2 ⊢
  by_cases hne : N = [] ∧ S = []
  · rw [cshakeBytes, if_pos hne]
    dsimp only
    rw [chunks_spongePad h0 (by decide) m h1 h2, List.foldl_append, hne.1, hne.2, new_empty]
    rfl
  · rw [cshakeBytes, if_neg hne]
    dsimp only
    rw [chunks_prefix h0 (by decide) (paddedPrefix_dvd h0 N S), chunks_spongePad h0 (by decide) m h1 h2,
      List.foldl_append, List.foldl_append, new_state hf h0 hr hN hS hne]
    rfl

theorem cshakeBytes_inj {rate : Nat} (hr : rate < 2 ^ 64) {N S m N' S' m' : Bytes}
    (hN : 8 * N.length < 2 ^ 64) (hS : 8 * S.length < 2 ^ 64) (hN' : 8 * N'.length < 2 ^ 64) (hS' : 8 * S'.length < 2 ^ 64)
    (h : cshakeBytes rate N S m = cshakeBytes rate N' S' m') : (N, S, m) = (N', S', m') := by
  unfold cshakeBytes at h
  split at h <;> split at h
  · next h1 h2 => rw [h1.1, h1.2, h2.1, h2.2, (Prod.mk.inj h).1]
  · exact absurd (Prod.mk.inj h).2 (by decide)
  · exact absurd (Prod.mk.inj h).2 (by decide)
  · have e := (Prod.mk.inj h).1
    have e' := e
    simp only [paddedPrefix, prefixBytes, Keccak.encodeString, List.append_assoc] at e'
    obtain ⟨-, e'⟩ := leftEncode_append_inj hr hr e'
    obtain ⟨l1, e'⟩ := leftEncode_append_inj hN hN' e'
    obtain ⟨n1, e'⟩ := List.append_inj e' (by omega)
    obtain ⟨l2, e'⟩ := leftEncode_append_inj hS hS' e'
    obtain ⟨n2, -⟩ := List.append_inj e' (by omega)
    subst n1 n2
    rw [List.append_cancel_left e]

end Sha3

namespace Ascon
variable {P : State → State}

/-- The words that no block touches. -/
def capacity (s : State) : W64 × W64 × W64 × W64 := (s.x1, s.x2, s.x3, s.x4)

theorem absorb_cap (hP : ∀ s t, P s = P t → s = t) {s t : State} {a b : Bytes} (h : absorbBlock P s a = absorbBlock P t b) :
    capacity s = capacity t := by
  have := hP _ _ h
  simp only [V5.mk.injEq] at this
  simp only [capacity, this.2]

theorem absorb_block (hP : ∀ s t, P s = P t → s = t) {s : State} {a b : Bytes} (ha : a.length = 8) (hb : b.length = 8)
    (h : absorbBlock P s a = absorbBlock P s b) : a = b := by
  have := (V5.mk.inj (hP _ _ h)).1
  have e : BitVec.ofNat 64 (ofLE a) = BitVec.ofNat 64 (ofLE b) := by
    have := congrArg (fun x => s.x0 ^^^ x) this
    simpa only [← BitVec.xor_assoc, BitVec.xor_self, BitVec.zero_xor] using this
  have e := congrArg BitVec.toNat e
  have k : ofLE a < 2 ^ 64 := by have := ofLE_lt a; rw [ha] at this; exact this
  have k' : ofLE b < 2 ^ 64 := by have := ofLE_lt b; rw [hb] at this; exact this
  rw [BitVec.toNat_ofNat, BitVec.toNat_ofNat, Nat.mod_eq_of_lt k, Nat.mod_eq_of_lt k'] at e
  have := congrArg (leBytes 8) e
  rwa [leBytes_ofLE' ha, leBytes_ofLE' hb] at this

theorem collide (hP : ∀ s t, P s = P t → s = t) (iv : State) {m m' : Bytes} (hne : m ≠ m') {ω : Type} {out : State → ω}
    (h : out ((chunks 8 (mdPad 8 0x01 [] m)).foldl (absorbBlock P) iv) = out ((chunks 8 (mdPad 8 0x01 [] m')).foldl (absorbBlock P) iv)) :
    SpongeCollide (absorbBlock P) iv capacity out (chunks 8 (mdPad 8 0x01 [] m)) (chunks 8 (mdPad 8 0x01 [] m')) := by
  have split : ∀ m : Bytes, ∃ p a, chunks 8 (mdPad 8 0x01 [] m) = p ++ [a] ∧ a.length = 8 := by
    intro m
    have hlt := Nat.mod_lt m.length (show 8 > 0 by decide)
    have hl : (m.drop (m.length / 8 * 8)).length = m.length % 8 := by simp; omega
    rw [chunks_mdPad (by decide)]
    refine ⟨_, _, congrArg _ (chunks_single (by decide) ?_), ?_⟩ <;> (simp [mdPad, zeroFill]; omega)
  have ne : chunks 8 (mdPad 8 0x01 [] m) ≠ chunks 8 (mdPad 8 0x01 [] m') := fun e => by
    have := congrArg List.flatten e
    rw [chunks_flatten (length_mdPad_dvd (by decide)), chunks_flatten (length_mdPad_dvd (by decide))] at this
    exact hne (mdPad_inj (by decide) rfl this)
  obtain ⟨p, a, e1, ha⟩ := split m
  obtain ⟨q, b, e2, hb⟩ := split m'
  rw [e1, e2] at h ne ⊢
  exact sponge_collide (absorb_cap hP) (absorb_block hP ha hb) ne h

end Ascon
end Hashes
