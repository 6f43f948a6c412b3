import Verif.Proof.Perm.Basic
import Verif.Proof.Gost94
import Verif.Proof.Md2
import Verif.Model.Tiger
/- Helpers for C62: the GOST R 34.11-94 mixing and its block cipher, the MD2 passes and Tiger's key schedule are injective. -/
namespace Hashes.Perm
open Function

/-! ### Tiger's key schedule -/


theorem sched0 (c : W64) : Injective fun x : V8 W64 => { x with x0 := x.x0 - (x.x7 ^^^ c) } := by
  intro x y h
  simp only [V8.mk.injEq] at h
  obtain ⟨h0, h1, h2, h3, h4, h5, h6, h7⟩ := h
  rw [h7] at h0
  exact V8.ext (sub_left_eq h0) h1 h2 h3 h4 h5 h6 h7
theorem sched1 : Injective fun x : V8 W64 => { x with x1 := x.x1 ^^^ x.x0 } := by
  intro x y h
  simp only [V8.mk.injEq] at h
  obtain ⟨h0, h1, h2, h3, h4, h5, h6, h7⟩ := h
  rw [h0] at h1
  exact V8.ext h0 (xor_left_eq h1) h2 h3 h4 h5 h6 h7
theorem sched2 : Injective fun x : V8 W64 => { x with x2 := x.x2 + x.x1 } := by
  intro x y h
  simp only [V8.mk.injEq] at h
  obtain ⟨h0, h1, h2, h3, h4, h5, h6, h7⟩ := h
  rw [h1] at h2
  exact V8.ext h0 h1 (add_left_eq h2) h3 h4 h5 h6 h7
theorem sched3 : Injective fun x : V8 W64 => { x with x3 := x.x3 - (x.x2 ^^^ ((~~~x.x1) <<< 19)) } := by
  intro x y h
  simp only [V8.mk.injEq] at h
  obtain ⟨h0, h1, h2, h3, h4, h5, h6, h7⟩ := h
  rw [h1, h2] at h3
  exact V8.ext h0 h1 h2 (sub_left_eq h3) h4 h5 h6 h7
theorem sched4 : Injective fun x : V8 W64 => { x with x4 := x.x4 ^^^ x.x3 } := by
  intro x y h
  simp only [V8.mk.injEq] at h
  obtain ⟨h0, h1, h2, h3, h4, h5, h6, h7⟩ := h
  rw [h3] at h4
  exact V8.ext h0 h1 h2 h3 (xor_left_eq h4) h5 h6 h7
theorem sched5 : Injective fun x : V8 W64 => { x with x5 := x.x5 + x.x4 } := by
  intro x y h
  simp only [V8.mk.injEq] at h
  obtain ⟨h0, h1, h2, h3, h4, h5, h6, h7⟩ := h
  rw [h4] at h5
  exact V8.ext h0 h1 h2 h3 h4 (add_left_eq h5) h6 h7
theorem sched6 : Injective fun x : V8 W64 => { x with x6 := x.x6 - (x.x5 ^^^ ((~~~x.x4) >>> 23)) } := by
  intro x y h
  simp only [V8.mk.injEq] at h
  obtain ⟨h0, h1, h2, h3, h4, h5, h6, h7⟩ := h
  rw [h4, h5] at h6
  exact V8.ext h0 h1 h2 h3 h4 h5 (sub_left_eq h6) h7
theorem sched7 : Injective fun x : V8 W64 => { x with x7 := x.x7 ^^^ x.x6 } := by
  intro x y h
  simp only [V8.mk.injEq] at h
  obtain ⟨h0, h1, h2, h3, h4, h5, h6, h7⟩ := h
  rw [h6] at h7
  exact V8.ext h0 h1 h2 h3 h4 h5 h6 (xor_left_eq h7)
theorem sched8 : Injective fun x : V8 W64 => { x with x0 := x.x0 + x.x7 } := by
  intro x y h
  simp only [V8.mk.injEq] at h
  obtain ⟨h0, h1, h2, h3, h4, h5, h6, h7⟩ := h
  rw [h7] at h0
  exact V8.ext (add_left_eq h0) h1 h2 h3 h4 h5 h6 h7
theorem sched9 : Injective fun x : V8 W64 => { x with x1 := x.x1 - (x.x0 ^^^ ((~~~x.x7) <<< 19)) } := by
  intro x y h
  simp only [V8.mk.injEq] at h
  obtain ⟨h0, h1, h2, h3, h4, h5, h6, h7⟩ := h
  rw [h0, h7] at h1
  exact V8.ext h0 (sub_left_eq h1) h2 h3 h4 h5 h6 h7
theorem sched10 : Injective fun x : V8 W64 => { x with x2 := x.x2 ^^^ x.x1 } := by
  intro x y h
  simp only [V8.mk.injEq] at h
  obtain ⟨h0, h1, h2, h3, h4, h5, h6, h7⟩ := h
  rw [h1] at h2
  exact V8.ext h0 h1 (xor_left_eq h2) h3 h4 h5 h6 h7
theorem sched11 : Injective fun x : V8 W64 => { x with x3 := x.x3 + x.x2 } := by
  intro x y h
  simp only [V8.mk.injEq] at h
  obtain ⟨h0, h1, h2, h3, h4, h5, h6, h7⟩ := h
  rw [h2] at h3
  exact V8.ext h0 h1 h2 (add_left_eq h3) h4 h5 h6 h7
theorem sched12 : Injective fun x : V8 W64 => { x with x4 := x.x4 - (x.x3 ^^^ ((~~~x.x2) >>> 23)) } := by
  intro x y h
  simp only [V8.mk.injEq] at h
  obtain ⟨h0, h1, h2, h3, h4, h5, h6, h7⟩ := h
  rw [h2, h3] at h4
  exact V8.ext h0 h1 h2 h3 (sub_left_eq h4) h5 h6 h7
theorem sched13 : Injective fun x : V8 W64 => { x with x5 := x.x5 ^^^ x.x4 } := by
  intro x y h
  simp only [V8.mk.injEq] at h
  obtain ⟨h0, h1, h2, h3, h4, h5, h6, h7⟩ := h
  rw [h4] at h5
  exact V8.ext h0 h1 h2 h3 h4 (xor_left_eq h5) h6 h7
theorem sched14 : Injective fun x : V8 W64 => { x with x6 := x.x6 + x.x5 } := by
  intro x y h
  simp only [V8.mk.injEq] at h
  obtain ⟨h0, h1, h2, h3, h4, h5, h6, h7⟩ := h
  rw [h5] at h6
  exact V8.ext h0 h1 h2 h3 h4 h5 (add_left_eq h6) h7
theorem sched15 (c : W64) : Injective fun x : V8 W64 => { x with x7 := x.x7 - (x.x6 ^^^ c) } := by
  intro x y h
  simp only [V8.mk.injEq] at h
  obtain ⟨h0, h1, h2, h3, h4, h5, h6, h7⟩ := h
  rw [h6] at h7
  exact V8.ext h0 h1 h2 h3 h4 h5 h6 (sub_left_eq h7)

theorem keySchedule_inj : Injective Tiger.keySchedule :=
  (sched15 _).comp <| sched14.comp <| sched13.comp <| sched12.comp <| sched11.comp <| sched10.comp <| sched9.comp <|
    sched8.comp <| sched7.comp <| sched6.comp <| sched5.comp <| sched4.comp <| sched3.comp <| sched2.comp <|
    sched1.comp (sched0 _)

/-! ### GOST R 34.11-94 -/

theorem list_take2 {b : Bytes} (h : 2 ≤ b.length) : b = [b.getD 0 0, b.getD 1 0] ++ b.drop 2 := by
  match b, h with
  | x :: y :: l, _ => rfl

theorem psi_inj {b b' : Bytes} (hb : b.length = 32) (hb' : b'.length = 32) (h : Gost94.psi b = Gost94.psi b') : b = b' := by
  have hd : (b.drop 2).length = (b'.drop 2).length := by simp [hb, hb']
  obtain ⟨e, t⟩ := List.append_inj h hd
  have g : ∀ i, 2 ≤ i → b.getD i 0 = b'.getD i 0 := by
    intro i hi
    have := congrArg (fun l => l.getD (i - 2) (0 : Byte)) e
    simp only [List.getD_eq_getElem?_getD, List.getElem?_drop] at this ⊢
    rwa [show 2 + (i - 2) = i by omega] at this
  simp only [List.cons.injEq, and_true] at t
  obtain ⟨t0, t1⟩ := t
  rw [g 2 (by decide), g 4 (by decide), g 6 (by decide), g 24 (by decide), g 30 (by decide)] at t0
  rw [g 3 (by decide), g 5 (by decide), g 7 (by decide), g 25 (by decide), g 31 (by decide)] at t1
  rw [list_take2 (b := b) (by omega), list_take2 (b := b') (by omega), e,
    xor_left_eq (xor_left_eq (xor_left_eq (xor_left_eq (xor_left_eq t0)))),
    xor_left_eq (xor_left_eq (xor_left_eq (xor_left_eq (xor_left_eq t1))))]

theorem psiN_inj (n : Nat) {b b' : Bytes} (hb : b.length = 32) (hb' : b'.length = 32) (h : Gost94.psiN n b = Gost94.psiN n b') :
    b = b' := by
  induction n generalizing b b' with
  | zero => exact h
  | succ n ih => exact psi_inj hb hb' (ih (Gost94.length_psi b hb) (Gost94.length_psi b' hb') h)

theorem x_getD {a b a' b' : Bytes} (h : Gost94.x a b = Gost94.x a' b') {i : Nat} (hi : i < 32) :
    a.getD i 0 ^^^ b.getD i 0 = a'.getD i 0 ^^^ b'.getD i 0 := by
  have := congrArg (fun l => l.getD i (0 : Byte)) h
  simpa [Gost94.x, List.getD_eq_getElem?_getD, hi] using this

theorem bytes_ext {n : Nat} {a b : Bytes} (ha : a.length = n) (hb : b.length = n) (h : ∀ i < n, a.getD i 0 = b.getD i 0) : a = b := by
  apply List.ext_getElem (by omega)
  intro i h1 h2
  have := h i (by omega)
  simpa [List.getD_eq_getElem?_getD, h1, h2] using this

theorem x_left {a a' b : Bytes} (ha : a.length = 32) (ha' : a'.length = 32) (h : Gost94.x a b = Gost94.x a' b) : a = a' :=
  bytes_ext ha ha' fun _ hi => xor_left_eq (x_getD h hi)
theorem x_right {a b b' : Bytes} (hb : b.length = 32) (hb' : b'.length = 32) (h : Gost94.x a b = Gost94.x a b') : b = b' :=
  bytes_ext hb hb' fun _ hi => xor_right_eq (x_getD h hi)

theorem shuffle_h {h h' m s : Bytes} (hh : h.length = 32) (hh' : h'.length = 32) (e : Gost94.shuffle h m s = Gost94.shuffle h' m s) :
    h = h' :=
  x_left hh hh' (psiN_inj 61 (Gost94.length_x _ _) (Gost94.length_x _ _) e)
theorem shuffle_m {h m m' s : Bytes} (hm : m.length = 32) (hm' : m'.length = 32) (e : Gost94.shuffle h m s = Gost94.shuffle h m' s) :
    m = m' :=
  x_right hm hm' (psi_inj (Gost94.length_x _ _) (Gost94.length_x _ _)
    (x_right (Gost94.length_psi _ (Gost94.length_x _ _)) (Gost94.length_psi _ (Gost94.length_x _ _))
      (psiN_inj 61 (Gost94.length_x _ _) (Gost94.length_x _ _) e)))
theorem shuffle_s {h m s s' : Bytes} (hs : s.length = 32) (hs' : s'.length = 32) (e : Gost94.shuffle h m s = Gost94.shuffle h m s') :
    s = s' :=
  psiN_inj 12 hs hs' (x_left (Gost94.length_psiN _ _ hs) (Gost94.length_psiN _ _ hs')
    (psi_inj (Gost94.length_x _ _) (Gost94.length_x _ _)
      (x_right (Gost94.length_psi _ (Gost94.length_x _ _)) (Gost94.length_psi _ (Gost94.length_x _ _))
        (psiN_inj 61 (Gost94.length_x _ _) (Gost94.length_x _ _) e))))

theorem gost_round (s : List (List Byte)) (k : W32) : Injective fun ab => Gost94.round s ab k := by
  intro p q h
  obtain ⟨h1, h2⟩ := Prod.mk.inj h
  rw [h2] at h1
  exact Prod.ext h2 (xor_left_eq h1)

theorem wordLE_pair {m m' : Bytes} (hm : m.length = 8) (hm' : m'.length = 8) (h0 : wordLE 32 m 0 = wordLE 32 m' 0)
    (h1 : wordLE 32 m 1 = wordLE 32 m' 1) : m = m' := by
  have key : ∀ {b b' : Bytes}, b.length = 4 → b'.length = 4 → BitVec.ofNat 32 (ofLE b) = BitVec.ofNat 32 (ofLE b') → b = b' := by
    intro b b' hb hb' h
    have lt : ofLE b < 2 ^ 32 := by have := ofLE_lt b; rw [hb] at this; simpa using this
    have lt' : ofLE b' < 2 ^ 32 := by have := ofLE_lt b'; rw [hb'] at this; simpa using this
    have e := congrArg BitVec.toNat h
    rw [BitVec.toNat_ofNat, BitVec.toNat_ofNat, Nat.mod_eq_of_lt lt, Nat.mod_eq_of_lt lt'] at e
    rw [← leBytes_ofLE' hb, ← leBytes_ofLE' hb', e]
  have e0 : m.take 4 = m'.take 4 := key (by simp [hm]) (by simp [hm']) h0
  have e1 : (m.drop 4).take 4 = (m'.drop 4).take 4 := key (by simp [hm]) (by simp [hm']) h1
  rw [List.take_of_length_le (by simp [hm]), List.take_of_length_le (by simp [hm'])] at e1
  rw [← List.take_append_drop 4 m, ← List.take_append_drop 4 m', e0, e1]

theorem leBytes4_inj {a b : W32} (h : leBytes 4 a.toNat = leBytes 4 b.toNat) : a = b := by
  have := leBytes_inj h
  rw [Nat.mod_eq_of_lt (by have := a.isLt; omega), Nat.mod_eq_of_lt (by have := b.isLt; omega)] at this
  exact BitVec.eq_of_toNat_eq this

theorem encrypt_inj (key : Bytes) (sb : List (List Byte)) {m m' : Bytes} (hm : m.length = 8) (hm' : m'.length = 8)
    (h : Gost94.encrypt m key sb = Gost94.encrypt m' key sb) : m = m' := by
  simp only [Gost94.encrypt] at h
  obtain ⟨h2, h1⟩ := List.append_inj h (by simp)
  have e := inj_foldl _ (fun k _ => gost_round sb k) (Prod.ext (leBytes4_inj h1) (leBytes4_inj h2))
  have e := inj_foldl _ (fun _ _ => inj_foldl _ (fun k _ => gost_round sb k)) e
  exact wordLE_pair hm hm' (Prod.mk.inj e).1 (Prod.mk.inj e).2

/-! ### MD2 -/

theorem pass_tail (l l' : Bytes) (t t' : Byte) (h : (Md2.pass l t).1 = (Md2.pass l' t').1) : l.tail = l'.tail := by
  have key : ∀ (l l' : Bytes) (t : Byte), (Md2.pass l t).1 = (Md2.pass l' t).1 → l = l' := by
    intro l
    induction l with
    | nil => intro l' t h; cases l' with
      | nil => rfl
      | cons => cases h
    | cons b l ih => intro l' t h; cases l' with
      | nil => cases h
      | cons b' l' =>
        simp only [Md2.pass, List.cons.injEq] at h
        obtain ⟨h1, h2⟩ := h
        rw [h1] at h2
        rw [xor_left_eq h1, ih _ _ h2]
  cases l with
  | nil => cases l' with
    | nil => rfl
    | cons => cases h
  | cons b l => cases l' with
    | nil => cases h
    | cons b' l' =>
      simp only [Md2.pass, List.cons.injEq] at h
      obtain ⟨h1, h2⟩ := h
      rw [h1] at h2
      exact key _ _ _ h2

theorem pass_last (l : Bytes) (t : Byte) : (Md2.pass l t).2 = (Md2.pass l t).1.getLastD t := by
  induction l generalizing t with
  | nil => rfl
  | cons b l ih => simp only [Md2.pass, ih, List.getLastD_cons]

theorem getLastD_tail {l l' : Bytes} {t : Byte} (hl : 2 ≤ l.length) (hl' : 2 ≤ l'.length) (h : l.tail = l'.tail) :
    l.getLastD t = l'.getLastD t := by
  match l, l', hl, hl', h with
  | a :: b :: l, a' :: b' :: l', _, _, h =>
    simp only [List.tail_cons, List.cons.injEq] at h
    simp only [List.getLastD_cons, h.1, h.2]

theorem getLastD_any {l : Bytes} (hl : l ≠ []) (t t' : Byte) : l.getLastD t = l.getLastD t' := by
  cases l with
  | nil => exact absurd rfl hl
  | cons => rfl

theorem rounds_inj (n : Nat) {x y : Bytes} (hx : 2 ≤ x.length) (hy : 2 ≤ y.length)
    (h : (Md2.rounds x n).1 = (Md2.rounds y n).1) : x = y := by
  induction n with
  | zero => exact h
  | succ n ih =>
    apply ih
    simp only [Md2.rounds] at h
    have ht := pass_tail _ _ _ _ h
    have lx : 2 ≤ (Md2.rounds x n).1.length := by rw [Md2.length_rounds]; exact hx
    have ly : 2 ≤ (Md2.rounds y n).1.length := by rw [Md2.length_rounds]; exact hy
    have tt : (Md2.rounds x n).2 = (Md2.rounds y n).2 := by
      cases n with
      | zero => rfl
      | succ n =>
        have nx : (Md2.rounds x (n + 1)).1 ≠ [] := by intro e; rw [e] at lx; simp at lx
        have g := getLastD_tail (t := 0) lx ly ht
        have e : ∀ z : Bytes, 2 ≤ (Md2.rounds z (n + 1)).1.length →
            (Md2.rounds z (n + 1)).2 = (Md2.rounds z (n + 1)).1.getLastD 0 + BitVec.ofNat 8 n := by
          intro z hz
          have nz : (Md2.rounds z (n + 1)).1 ≠ [] := by intro e; rw [e] at hz; simp at hz
          simp only [Md2.rounds] at nz ⊢
          rw [pass_last, getLastD_any nz _ 0]
        rw [e x lx, e y ly, g]
    match hX : (Md2.rounds x n).1, hY : (Md2.rounds y n).1, lx, ly with
    | a :: l, a' :: l', _, _ =>
      rw [hX, hY] at h ht
      rw [tt] at h
      simp only [Md2.pass, List.cons.injEq] at h
      rw [xor_left_eq h.1, show l = l' from ht]
    | [], _, lx, _ => simp at lx
    | _ :: _, [], _, ly => simp at ly

/-- `x[0..16]` and the checksum before are determined by those after and the block. -/
theorem checksum_inj (b : Bytes) (hb : b.length = 16) {c c' : Bytes} (hc : c.length = 16) (hc' : c'.length = 16)
    (h : Md2.checksumLoop (c.zip b) (c.getD 15 0) = Md2.checksumLoop (c'.zip b) (c'.getD 15 0)) : c = c' := by
  have key : ∀ (c c' b : Bytes) (t : Byte), c.length = b.length → c'.length = b.length →
      Md2.checksumLoop (c.zip b) t = Md2.checksumLoop (c'.zip b) t → c = c' := by
    intro c
    induction c with
    | nil => intro c' b t h1 h2 _; simp only [List.length_nil] at h1; rw [← h1] at h2; exact (List.length_eq_zero_iff.1 h2).symm
    | cons x c ih =>
      intro c' b t h1 h2 h
      match c', b, h1, h2, h with
      | y :: c', z :: b, h1, h2, h =>
        simp only [List.zip_cons_cons, Md2.checksumLoop, List.cons.injEq] at h
        obtain ⟨e, h⟩ := h
        rw [e] at h
        simp only [List.length_cons, Nat.add_right_cancel_iff] at h1 h2
        rw [xor_left_eq e, ih c' b _ h1 h2 h]
      | [], _ :: _, _, h2, _ => cases h2
      | _, [], h1, _, _ => cases h1
  match c, c', b, hc, hc', hb, h with
  | x :: c, x' :: c', z :: b, hc, hc', hb, h =>
    simp only [List.length_cons] at hc hc' hb
    simp only [List.zip_cons_cons, Md2.checksumLoop, List.cons.injEq, List.getD_cons_succ] at h
    obtain ⟨e, h⟩ := h
    rw [e] at h
    have := key c c' b _ (by omega) (by omega) h
    rw [this] at e
    rw [xor_left_eq e, this]

theorem md2_S : ∀ i j : Byte, Md2.s i = Md2.s j → i = j := by
  have h : ∀ i : Byte, (Md2.S.idxOf (Md2.s i)) = i.toNat := by decide +kernel
  intro i j e
  apply BitVec.eq_of_toNat_eq
  rw [← h i, ← h j, e]

theorem checksum_block (c : Bytes) {b b' : Bytes} (t : Byte) (hb : b.length = c.length) (hb' : b'.length = c.length)
    (h : Md2.checksumLoop (c.zip b) t = Md2.checksumLoop (c.zip b') t) : b = b' := by
  induction c generalizing b b' t with
  | nil => rw [List.length_eq_zero_iff.1 hb, List.length_eq_zero_iff.1 hb']
  | cons x c ih =>
    match b, b', hb, hb', h with
    | y :: b, y' :: b', hb, hb', h =>
      simp only [List.length_cons, Nat.add_right_cancel_iff] at hb hb'
      simp only [List.zip_cons_cons, Md2.checksumLoop, List.cons.injEq] at h
      obtain ⟨e, h⟩ := h
      rw [e] at h
      rw [xor_left_eq (md2_S _ _ (xor_right_eq e)), ih _ hb hb' h]

end Hashes.Perm
