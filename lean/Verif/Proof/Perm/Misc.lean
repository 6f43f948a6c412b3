import Verif.Proof.Perm.Basic
import Verif.Proof.Jh
import Verif.Model.Blake2
import Verif.Proof.Shabal
/- Helpers for C62: JH, the BLAKE2 rounds and the Shabal round are injective. -/
namespace Hashes.Perm
open Function

/-! ### JH -/

theorem jh_ss_bits : ∀ k a0 a1 a2 a3 b0 b1 b2 b3 : Bool,
    (let f := fun (m0 m1 m2 m3 k : Bool) =>
      let m3 := !m3
      let m0 := m0 ^^ (!m2 && k)
      let k := k ^^ (m0 && m1)
      let m0 := m0 ^^ (m3 && m2)
      let m3 := m3 ^^ (!m1 && m2)
      let m1 := m1 ^^ (m0 && m2)
      let m2 := m2 ^^ (!m3 && m0)
      let m0 := m0 ^^ (m1 || m3)
      let m3 := m3 ^^ (m1 && m2)
      let m2 := m2 ^^ k
      let m1 := m1 ^^ (k && m0)
      (m0, m1, m2, m3)
     f a0 a1 a2 a3 k = f b0 b1 b2 b3 k → a0 = b0 ∧ a1 = b1 ∧ a2 = b2 ∧ a3 = b3) := by decide +kernel

theorem jh_ssHalf (k : W128) {a0 a1 a2 a3 b0 b1 b2 b3 : W128}
    (h : Jh.ssHalf a0 a1 a2 a3 k = Jh.ssHalf b0 b1 b2 b3 k) : a0 = b0 ∧ a1 = b1 ∧ a2 = b2 ∧ a3 = b3 := by
  have key : ∀ i < 128, a0.getLsbD i = b0.getLsbD i ∧ a1.getLsbD i = b1.getLsbD i ∧ a2.getLsbD i = b2.getLsbD i ∧
      a3.getLsbD i = b3.getLsbD i := by
    intro i hi
    have hn : ∀ x : W128, (~~~x).getLsbD i = !x.getLsbD i := fun x => by simp [hi]
    have e : ∀ m0 m1 m2 m3 : W128, ((Jh.ssHalf m0 m1 m2 m3 k).1.getLsbD i, (Jh.ssHalf m0 m1 m2 m3 k).2.1.getLsbD i,
        (Jh.ssHalf m0 m1 m2 m3 k).2.2.1.getLsbD i, (Jh.ssHalf m0 m1 m2 m3 k).2.2.2.getLsbD i) =
        (let k := k.getLsbD i
         let m0 := m0.getLsbD i
         let m1 := m1.getLsbD i
         let m2 := m2.getLsbD i
         let m3 := m3.getLsbD i
         let m3 := !m3
         let m0 := m0 ^^ (!m2 && k)
         let k := k ^^ (m0 && m1)
         let m0 := m0 ^^ (m3 && m2)
         let m3 := m3 ^^ (!m1 && m2)
         let m1 := m1 ^^ (m0 && m2)
         let m2 := m2 ^^ (!m3 && m0)
         let m0 := m0 ^^ (m1 || m3)
         let m3 := m3 ^^ (m1 && m2)
         let m2 := m2 ^^ k
         let m1 := m1 ^^ (k && m0)
         (m0, m1, m2, m3)) := by
      intro m0 m1 m2 m3
      simp only [Jh.ssHalf, Jh.andnot, BitVec.getLsbD_xor, BitVec.getLsbD_and, BitVec.getLsbD_or, hn]
    apply jh_ss_bits (k.getLsbD i)
    have ea := e a0 a1 a2 a3
    have eb := e b0 b1 b2 b3
    rw [h, eb] at ea
    exact ea.symm
  exact ⟨BitVec.eq_of_getLsbD_eq fun i hi => (key i hi).1, BitVec.eq_of_getLsbD_eq fun i hi => (key i hi).2.1,
    BitVec.eq_of_getLsbD_eq fun i hi => (key i hi).2.2.1, BitVec.eq_of_getLsbD_eq fun i hi => (key i hi).2.2.2⟩

theorem jh_ss (k0 k1 : W128) : Injective fun y => Jh.ss y k0 k1 := by
  intro a b h
  simp only [Jh.ss, V8.mk.injEq] at h
  obtain ⟨h0, h1, h2, h3, h4, h5, h6, h7⟩ := h
  obtain ⟨e0, e2, e4, e6⟩ := jh_ssHalf k0 (Prod.ext h0 (Prod.ext h2 (Prod.ext h4 h6)))
  obtain ⟨e1, e3, e5, e7⟩ := jh_ssHalf k1 (Prod.ext h1 (Prod.ext h3 (Prod.ext h5 h7)))
  exact V8.ext e0 e1 e2 e3 e4 e5 e6 e7

theorem jh_l : Injective Jh.l := by
  intro a b h
  simp only [Jh.l, V8.mk.injEq] at h
  obtain ⟨h0, h1, h2, h3, h4, h5, h6, h7⟩ := h
  rw [h3] at h0
  rw [h5] at h2
  rw [h7, h1] at h4
  rw [h1] at h6
  have e0 := xor_left_eq h0
  have e2 := xor_left_eq h2
  have e4 := xor_left_eq h4
  have e6 := xor_left_eq h6
  rw [e2] at h1
  rw [e4] at h3
  rw [e6, e0] at h5
  rw [e0] at h7
  exact V8.ext e0 (xor_left_eq h1) e2 (xor_left_eq h3) e4 (xor_left_eq h5) e6 (xor_left_eq h7)

theorem jh_swap (j : Nat) (hj : j < 7) : Injective (Jh.swap j) := by
  intro x y h
  apply BitVec.eq_of_getLsbD_eq
  intro i hi
  have hk : ∀ j < 7, ∀ i < 128, i ^^^ 2 ^ j < 128 := by decide +kernel
  have : (Jh.swap j x).getLsbD (i ^^^ 2 ^ j) = (Jh.swap j y).getLsbD (i ^^^ 2 ^ j) := by rw [h]
  rwa [Jh.swap_bit j hj x _ (hk j hj i hi), Jh.swap_bit j hj y _ (hk j hj i hi), Nat.xor_assoc, Nat.xor_self, Nat.xor_zero] at this

theorem jh_round (r : Nat) : Injective fun y => Jh.round y r := by
  intro a b h
  simp only [Jh.round, V8.mk.injEq] at h
  obtain ⟨h0, h1, h2, h3, h4, h5, h6, h7⟩ := h
  have hr : r % 7 < 7 := Nat.mod_lt _ (by decide)
  exact jh_ss _ _ (jh_l (V8.ext h0 (jh_swap _ hr h1) h2 (jh_swap _ hr h3) h4 (jh_swap _ hr h5) h6 (jh_swap _ hr h7)))

theorem jh_f8 (data : Bytes) : Injective fun y => Jh.f8 y data := by
  intro a b h
  simp only [Jh.f8, V8.mk.injEq] at h
  obtain ⟨h0, h1, h2, h3, h4, h5, h6, h7⟩ := h
  have := inj_foldl (List.range 42) (fun r _ => jh_round r)
    (V8.ext h0 h1 h2 h3 (xor_left_eq h4) (xor_left_eq h5) (xor_left_eq h6) (xor_left_eq h7))
  simp only [V8.mk.injEq] at this
  obtain ⟨g0, g1, g2, g3, g4, g5, g6, g7⟩ := this
  exact V8.ext (xor_left_eq g0) (xor_left_eq g1) (xor_left_eq g2) (xor_left_eq g3) g4 g5 g6 g7

/-! ### BLAKE2 -/
section
open Blake2
variable {w : Nat}

theorem rotateRight_inj (n : Nat) : Injective fun x : BitVec w => x.rotateRight n := by
  intro x y h
  rcases Nat.eq_zero_or_pos w with rfl | hw
  · exact BitVec.eq_of_zero_length rfl
  apply BitVec.eq_of_getLsbD_eq
  intro i hi
  have hr : n % w < w := Nat.mod_lt _ hw
  by_cases hc : n % w ≤ i
  · have := congrArg (fun z : BitVec w => z.getLsbD (i - n % w)) h
    simp only [BitVec.getLsbD_rotateRight] at this
    have h1 : i - n % w < w - n % w := by omega
    have h2 : n % w + (i - n % w) = i := by omega
    simpa [h1, h2] using this
  · have := congrArg (fun z : BitVec w => z.getLsbD (i + (w - n % w))) h
    simp only [BitVec.getLsbD_rotateRight] at this
    have h1 : ¬ (i + (w - n % w) < w - n % w) := by omega
    have h2 : i + (w - n % w) < w := by omega
    have h3 : i + (w - n % w) - (w - n % w) = i := by omega
    simpa [h1, h2, h3] using this

theorem vec_add {a b c : Vec w} (h : a.add c = b.add c) : a = b := by
  simp only [Vec.add, V4.zip, V4.mk.injEq] at h
  exact V4.ext (add_left_eq h.1) (add_left_eq h.2.1) (add_left_eq h.2.2.1) (add_left_eq h.2.2.2)
theorem vec_xor {a b c : Vec w} (h : a.xor c = b.xor c) : a = b := by
  simp only [Vec.xor, V4.zip, V4.mk.injEq] at h
  exact V4.ext (xor_left_eq h.1) (xor_left_eq h.2.1) (xor_left_eq h.2.2.1) (xor_left_eq h.2.2.2)
theorem vec_ror {a b : Vec w} {n : Nat} (h : a.ror n = b.ror n) : a = b := by
  simp only [Vec.ror, V4.map, V4.mk.injEq] at h
  exact V4.ext (rotateRight_inj n h.1) (rotateRight_inj n h.2.1) (rotateRight_inj n h.2.2.1) (rotateRight_inj n h.2.2.2)

theorem quarterRound_inj (rd rb : Nat) (m : Vec w) : Injective fun v => quarterRound v rd rb m := by
  intro a b h
  simp only [quarterRound, V4.mk.injEq] at h
  obtain ⟨h0, h1, h2, h3⟩ := h
  rw [h3] at h2
  have e2 := vec_add h2
  rw [h3, e2] at h1
  have e1 := vec_xor (vec_ror h1)
  rw [h0] at h3
  have e3 := vec_xor (vec_ror h3)
  rw [e1] at h0
  exact V4.ext (vec_add (vec_add h0)) e1 e2 e3

theorem shuffle_inj : Injective (shuffle (w := w)) := by
  intro a b h
  simp only [shuffle, Vec.shuffleLeft1, Vec.shuffleLeft2, Vec.shuffleLeft3, V4.mk.injEq] at h
  obtain ⟨h0, ⟨a1, a2, a3, a0⟩, ⟨b2, b3, b0, b1⟩, c3, c0, c1, c2⟩ := h
  exact V4.ext h0 (V4.ext a0 a1 a2 a3) (V4.ext b0 b1 b2 b3) (V4.ext c0 c1 c2 c3)
theorem unshuffle_inj : Injective (unshuffle (w := w)) := by
  intro a b h
  simp only [unshuffle, Vec.shuffleRight1, Vec.shuffleRight2, Vec.shuffleRight3, Vec.shuffleLeft1, Vec.shuffleLeft2,
    Vec.shuffleLeft3, V4.mk.injEq] at h
  obtain ⟨h0, ⟨a3, a0, a1, a2⟩, ⟨b2, b3, b0, b1⟩, c1, c2, c3, c0⟩ := h
  exact V4.ext h0 (V4.ext a0 a1 a2 a3) (V4.ext b0 b1 b2 b3) (V4.ext c0 c1 c2 c3)

theorem blake2_round (c : Cfg w) (m : Nat → BitVec w) (s : List Nat) : Injective (Blake2.round c m s) := by
  intro a b h
  exact quarterRound_inj _ _ _ (quarterRound_inj _ _ _ (shuffle_inj (quarterRound_inj _ _ _ (quarterRound_inj _ _ _
    (unshuffle_inj h)))))

end

/-! ### Shabal -/
open Shabal

theorem arr_get_set_ne {w n : Nat} (a : Arr w n) {i j : Nat} (y : BitVec w) (hi : i < n) (h : i ≠ j) : (a.set i y).get j = a.get j := by
  rw [Arr.get_set a i j y hi, if_neg h]
theorem arr_get_set_eq {w n : Nat} (a : Arr w n) {i : Nat} (y : BitVec w) (hi : i < n) : (a.set i y).get i = y := by
  rw [Arr.get_set a i i y hi, if_pos rfl]

theorem arr_set_eq {w n : Nat} {a b : Arr w n} {i : Nat} {x y : BitVec w} (hi : i < n) (h : a.set i x = b.set i y) :
    x = y ∧ ∀ j, i ≠ j → a.get j = b.get j := by
  refine ⟨?_, fun j hj => ?_⟩
  · rw [← arr_get_set_eq a x hi, h, arr_get_set_eq b y hi]
  · rw [← arr_get_set_ne a x hi hj, h, arr_get_set_ne b y hi hj]

theorem permElt_inj {xa0 xa1 xb0 xb1 xb2 xb3 xc : Nat} (m : W32) (ha0 : xa0 < 12) (hb0 : xb0 < 16) (ha : xa0 ≠ xa1)
    (h1 : xb0 ≠ xb1) (h2 : xb0 ≠ xb2) (h3 : xb0 ≠ xb3) :
    Injective fun s => permElt s xa0 xa1 xb0 xb1 xb2 xb3 xc m := by
  rintro ⟨a, b, c, w⟩ ⟨a', b', c', w'⟩ h
  simp only [permElt, State.mk.injEq] at h
  obtain ⟨hA, hB, rfl, rfl⟩ := h
  rw [arr_get_set_eq _ _ ha0, arr_get_set_eq _ _ ha0] at hB
  obtain ⟨eA, nA⟩ := arr_set_eq ha0 hA
  obtain ⟨eB, nB⟩ := arr_set_eq hb0 hB
  rw [eA] at eB
  have eb : b.get xb0 = b'.get xb0 := rotateLeft_eq (xor_left_eq (BitVec.not_inj.1 eB))
  rw [nB xb1 h1, nB xb2 h2, nB xb3 h3, nA xa1 ha] at eA
  have ea := xor_left_eq (xor_left_eq (mul_eq _ (0xaaaaaaab : W32) (by decide) (xor_left_eq (xor_left_eq (xor_left_eq eA)))))
  have hAA : a = a' := Arr.ext_get fun i _ => by
    by_cases hi : xa0 = i
    · rw [← hi, ea]
    · exact nA i hi
  have hBB : b = b' := Arr.ext_get fun i _ => by
    by_cases hi : xb0 = i
    · rw [← hi, eb]
    · exact nB i hi
  rw [hAA, hBB]

theorem permTable_ok : (permTable.all fun r => r.getD 0 0 < 12 && r.getD 2 0 < 16 && r.getD 0 0 != r.getD 1 0 &&
    r.getD 2 0 != r.getD 3 0 && r.getD 2 0 != r.getD 4 0 && r.getD 2 0 != r.getD 5 0) = true := by decide +kernel

theorem permBlocks_inj (m : Arr 32 16) : Injective fun s => permBlocks s m := by
  apply inj_foldl
  intro r hr
  have := List.all_eq_true.1 permTable_ok r hr
  simp only [Bool.and_eq_true, decide_eq_true_eq, bne_iff_ne, ne_eq] at this
  obtain ⟨⟨⟨⟨⟨h0, h2⟩, h01⟩, h23⟩, h24⟩, h25⟩ := this
  exact permElt_inj _ h0 h2 h01 h23 h24 h25

theorem arr_ofFn_eq {w n : Nat} {f g : Nat → BitVec w} (h : Arr.ofFn n f = Arr.ofFn n g) : ∀ i < n, f i = g i := by
  intro i hi
  rw [← Arr.get_ofFn f hi, h, Arr.get_ofFn g hi]

theorem perm_inj (m : Arr 32 16) : Injective fun s => perm s m := by
  intro s s' h
  simp only [perm, State.mk.injEq] at h
  obtain ⟨hA, hB, hC, hw⟩ := h
  have e := permBlocks_inj m (a₁ := { s with b := Arr.ofFn 16 fun i => (s.b.get i).rotateLeft 17 })
    (a₂ := { s' with b := Arr.ofFn 16 fun i => (s'.b.get i).rotateLeft 17 }) ?_
  · simp only [State.mk.injEq] at e
    obtain ⟨ha, hb, hc, hw⟩ := e
    have hb' : s.b = s'.b := Arr.ext_get fun i hi => rotateLeft_eq (arr_ofFn_eq hb i hi)
    cases s; cases s'
    simp only at ha hb' hc hw
    rw [ha, hb', hc, hw]
  · have key : ∀ t t' : State, t.a = t'.a → t.b = t'.b → t.c = t'.c → t.w = t'.w → t = t' := by
      rintro ⟨⟩ ⟨⟩ rfl rfl rfl rfl
      rfl
    refine key _ _ (Arr.ext_get fun i hi => ?_) hB hC hw
    have := arr_ofFn_eq hA i hi
    simp only [hC] at this
    exact add_left_eq this

theorem state_ext : ∀ t t' : State, t.a = t'.a → t.b = t'.b → t.c = t'.c → t.w = t'.w → t = t' := by
  rintro ⟨⟩ ⟨⟩ rfl rfl rfl rfl
  rfl

theorem post_inj (m : Arr 32 16) :
    Injective fun t : State => { swapBC (subM t m) with w := (swapBC (subM t m)).w + 1 } := by
  rintro ⟨a, b, c, w⟩ ⟨a', b', c', w'⟩ h
  simp only [swapBC, subM, State.mk.injEq] at h
  obtain ⟨ha, hc, hb, hw⟩ := h
  exact state_ext _ _ ha hb (Arr.ext_get fun i hi => sub_left_eq (arr_ofFn_eq hc i hi)) (add_left_eq hw)

theorem pre_inj (m : Arr 32 16) : Injective fun t : State => xorW (addM t m) := by
  rintro ⟨a, b, c, w⟩ ⟨a', b', c', w'⟩ e
  simp only [xorW, addM, State.mk.injEq] at e
  obtain ⟨ha, hb, hc, hw⟩ := e
  subst hw
  have hb' : b = b' := Arr.ext_get fun i hi => add_left_eq (arr_ofFn_eq hb i hi)
  obtain ⟨e1, n1⟩ := arr_set_eq (by decide) ha
  rw [arr_get_set_ne _ _ (by decide) (by decide), arr_get_set_ne _ _ (by decide) (by decide)] at e1
  have g1 := xor_left_eq e1
  have g0 := n1 0 (by decide)
  rw [arr_get_set_eq _ _ (by decide), arr_get_set_eq _ _ (by decide)] at g0
  have g0 := xor_left_eq g0
  have ha' : a = a' := Arr.ext_get fun i hi => by
    by_cases h0 : 0 = i
    · rw [← h0, g0]
    · by_cases h1 : 1 = i
      · rw [← h1, g1]
      · have := n1 i h1
        rwa [arr_get_set_ne _ _ (by decide) h0, arr_get_set_ne _ _ (by decide) h0] at this
  rw [ha', hb', hc]

theorem shabal_compress (block : Bytes) : Injective fun s => Shabal.compress s block :=
  (post_inj (readM block)).comp ((perm_inj (readM block)).comp (pre_inj (readM block)))

end Hashes.Perm
