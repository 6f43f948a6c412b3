import Verif.Proof.Perm.Basic
import Verif.Spec.Md
import Verif.Spec.Fips180
import Verif.Spec.Ripemd
import Verif.Spec.Sm3
import Verif.Spec.Tiger
/- Helpers for C62: the step functions of the MD4 family, SHA-1, SHA-2, SM3 and Tiger are injective for a fixed message. -/
namespace Hashes.Perm
open Function

theorem zip4_cancel {s t : V4 W32} : (s.zip (· + ·) t).zip (· - ·) s = t := by
  apply V4.ext <;> simp only [V4.zip] <;> rw [BitVec.add_comm] <;> exact BitVec.add_sub_cancel _ _
theorem zip5_cancel {s t : V5 W32} : (s.zip (· + ·) t).zip (· - ·) s = t := by
  apply V5.ext <;> simp only [V5.zip] <;> rw [BitVec.add_comm] <;> exact BitVec.add_sub_cancel _ _
theorem zip8_cancel {w : Nat} {s t : V8 (BitVec w)} : (s.zip (· + ·) t).zip (· - ·) s = t := by
  apply V8.ext <;> simp only [V8.zip] <;> rw [BitVec.add_comm] <;> exact BitVec.add_sub_cancel _ _
theorem zip8_cancel_xor {w : Nat} {s t : V8 (BitVec w)} : (s.zip (· ^^^ ·) t).zip (· ^^^ ·) s = t := by
  apply V8.ext <;> simp only [V8.zip] <;> rw [BitVec.xor_comm, ← BitVec.xor_assoc, BitVec.xor_self, BitVec.zero_xor]

/-! ### MD4, MD5 -/

theorem md4_step (X : Nat → W32) (i : Nat) : Injective (Spec.Md4.step X i) := by
  intro a b h
  simp only [Spec.Md4.step, V4.mk.injEq] at h
  obtain ⟨h3, h0, h1, h2⟩ := h
  rw [h1, h2, h3] at h0
  exact V4.ext (add_left_eq (add_left_eq (add_left_eq (rotateLeft_eq h0)))) h1 h2 h3

theorem md4_steps (X : Nat → W32) (n : Nat) : Injective (Spec.Md4.steps X n) := by
  induction n with
  | zero => exact fun _ _ h => h
  | succ n ih => exact fun _ _ h => ih (md4_step X n h)

theorem md5_step (X : Nat → W32) (i : Nat) : Injective (Spec.Md5.step X i) := by
  intro a b h
  simp only [Spec.Md5.step, V4.mk.injEq] at h
  obtain ⟨h3, h0, h1, h2⟩ := h
  rw [h1, h2, h3] at h0
  exact V4.ext (add_left_eq (add_left_eq (add_left_eq (rotateLeft_eq (add_right_eq h0))))) h1 h2 h3

theorem md5_steps (X : Nat → W32) (n : Nat) : Injective (Spec.Md5.steps X n) := by
  induction n with
  | zero => exact fun _ _ h => h
  | succ n ih => exact fun _ _ h => ih (md5_step X n h)

/-! ### SHA-1, SHA-2 -/

theorem sha1_round (t : Nat) (x : W32) : Injective (Spec.Sha1.round t x) := by
  intro a b h
  simp only [Spec.Sha1.round, V5.mk.injEq] at h
  obtain ⟨h4, h0, h1, h2, h3⟩ := h
  have h1 := rotateLeft_eq h1
  rw [h0, h1, h2, h3] at h4
  exact V5.ext h0 h1 h2 h3 (add_right_eq (add_left_eq (add_left_eq h4)))

theorem sha1_rounds (W : Nat → W32) (n : Nat) : Injective (Spec.Sha1.rounds W n) := by
  induction n with
  | zero => exact fun _ _ h => h
  | succ n ih => exact fun _ _ h => ih (sha1_round n (W n) h)

theorem sha2_round {w : Nat} (S0 S1 : BitVec w → BitVec w) (k x : BitVec w) : Injective (Spec.round2 S0 S1 k x) := by
  intro a b h
  simp only [Spec.round2, V8.mk.injEq] at h
  obtain ⟨h7, h0, h1, h2, h3, h4, h5, h6⟩ := h
  rw [h0, h1, h2, h4, h5, h6] at h7
  have h7' := add_left_eq h7
  rw [h4, h5, h6, h7'] at h3
  exact V8.ext h0 h1 h2 (add_left_eq h3) h4 h5 h6 (add_left_eq (add_left_eq (add_left_eq (add_left_eq h7'))))

theorem sha2_rounds {w : Nat} (S0 S1 : BitVec w → BitVec w) (K W : Nat → BitVec w) (n : Nat) :
    Injective (Spec.rounds2 S0 S1 K W n) := by
  induction n with
  | zero => exact fun _ _ h => h
  | succ n ih => exact fun _ _ h => ih (sha2_round S0 S1 (K n) (W n) h)

/-! ### SM3 -/

theorem sm3_P0 : Injective Spec.Sm3.P0 := by
  have ha : Additive Spec.Sm3.P0 :=
    (additive_id.xor (additive_rotateLeft 9)).xor (additive_rotateLeft 17)
  refine ha.inj (g := Spec.Sm3.P0^[3]) (ha.iter 3) ?_
  decide +kernel

theorem sm3_round (j : Nat) (x y : W32) : Injective (Spec.Sm3.round j x y) := by
  intro a b h
  simp only [Spec.Sm3.round, V8.mk.injEq] at h
  obtain ⟨h3, h0, h1, h2, h7, h4, h5, h6⟩ := h
  have h1 := rotateLeft_eq h1
  have h5 := rotateLeft_eq h5
  have h7 := sm3_P0 h7
  rw [h0, h1, h2, h4] at h3
  rw [h0, h4, h5, h6] at h7
  exact V8.ext h0 h1 h2 (add_right_eq (add_left_eq (add_left_eq h3))) h4 h5 h6 (add_right_eq (add_left_eq (add_left_eq h7)))

theorem sm3_rounds (W : Nat → W32) (n : Nat) : Injective (Spec.Sm3.rounds W n) := by
  induction n with
  | zero => exact fun _ _ h => h
  | succ n ih => exact fun _ _ h => ih (sm3_round n _ _ h)

/-! ### RIPEMD-256, RIPEMD-320 -/

theorem rmd_step4 (f : W32 → W32 → W32 → W32) (k x : W32) (s : Nat) : Injective (Spec.Ripemd.step4 f k x s) := by
  intro a b h
  simp only [Spec.Ripemd.step4, V4.mk.injEq] at h
  obtain ⟨h3, h0, h1, h2⟩ := h
  rw [h1, h2, h3] at h0
  exact V4.ext (add_left_eq (add_left_eq (add_left_eq (rotateLeft_eq h0)))) h1 h2 h3

theorem rmd_step5 (f : W32 → W32 → W32 → W32) (k x : W32) (s : Nat) : Injective (Spec.Ripemd.step5 f k x s) := by
  intro a b h
  simp only [Spec.Ripemd.step5, V5.mk.injEq] at h
  obtain ⟨h4, h0, h1, h2, h3⟩ := h
  have h2 := rotateLeft_eq h2
  rw [h1, h2, h3, h4] at h0
  exact V5.ext (add_left_eq (add_left_eq (add_left_eq (rotateLeft_eq (add_left_eq h0))))) h1 h2 h3 h4

theorem rmd_left4 (X : Nat → W32) (r : Nat) : Injective (Spec.Ripemd.left4 X r) :=
  inj_foldl _ fun _ _ => rmd_step4 _ _ _ _
theorem rmd_right4 (X : Nat → W32) (r : Nat) : Injective (Spec.Ripemd.right4 X r) :=
  inj_foldl _ fun _ _ => rmd_step4 _ _ _ _
theorem rmd_left5 (X : Nat → W32) (r : Nat) : Injective (Spec.Ripemd.left5 X r) :=
  inj_foldl _ fun _ _ => rmd_step5 _ _ _ _
theorem rmd_right5 (X : Nat → W32) (r : Nat) : Injective (Spec.Ripemd.right5 X r) :=
  inj_foldl _ fun _ _ => rmd_step5 _ _ _ _

theorem rmd_both4 (X : Nat → W32) (r : Nat) : Injective (Spec.Ripemd.both4 X r) := by
  intro a b h
  simp only [Spec.Ripemd.both4, Prod.mk.injEq] at h
  exact Prod.ext (rmd_left4 X r h.1) (rmd_right4 X r h.2)
theorem rmd_both5 (X : Nat → W32) (r : Nat) : Injective (Spec.Ripemd.both5 X r) := by
  intro a b h
  simp only [Spec.Ripemd.both5, Prod.mk.injEq] at h
  exact Prod.ext (rmd_left5 X r h.1) (rmd_right5 X r h.2)

theorem rmd_ex4 (i : Nat) : Injective (Spec.Ripemd.exchange4 i) := by
  intro a b h
  simp only [Spec.Ripemd.exchange4, Prod.mk.injEq] at h
  obtain ⟨⟨a0, a1, a2, a3⟩, ⟨a4, a5, a6, a7⟩⟩ := a
  obtain ⟨⟨b0, b1, b2, b3⟩, ⟨b4, b5, b6, b7⟩⟩ := b
  match i with
  | 0 | 1 | 2 | _ + 3 =>
    simp only [V4.set, V4.get, V4.mk.injEq] at h
    simp only [Prod.mk.injEq, V4.mk.injEq]
    simp only [h, and_self]
theorem rmd_ex5 (i : Nat) : Injective (Spec.Ripemd.exchange5 i) := by
  intro a b h
  simp only [Spec.Ripemd.exchange5, Prod.mk.injEq] at h
  obtain ⟨⟨a0, a1, a2, a3, a8⟩, ⟨a4, a5, a6, a7, a9⟩⟩ := a
  obtain ⟨⟨b0, b1, b2, b3, b8⟩, ⟨b4, b5, b6, b7, b9⟩⟩ := b
  match i with
  | 0 | 1 | 2 | 3 | _ + 4 =>
    simp only [V5.set, V5.get, V5.mk.injEq] at h
    simp only [Prod.mk.injEq, V5.mk.injEq]
    simp only [h, and_self]

/-- The pair of lines of RIPEMD-256. -/
def rmd256 (X : Nat → W32) (h : V2 (V4 W32)) : V4 W32 × V4 W32 :=
  Spec.Ripemd.exchange4 3 (Spec.Ripemd.both4 X 3 (Spec.Ripemd.exchange4 2 (Spec.Ripemd.both4 X 2
    (Spec.Ripemd.exchange4 1 (Spec.Ripemd.both4 X 1 (Spec.Ripemd.exchange4 0 (Spec.Ripemd.both4 X 0 (h.x0, h.x1))))))))
/-- The pair of lines of RIPEMD-320. -/
def rmd320 (X : Nat → W32) (h : V2 (V5 W32)) : V5 W32 × V5 W32 :=
  Spec.Ripemd.exchange5 4 (Spec.Ripemd.both5 X 4 (Spec.Ripemd.exchange5 2 (Spec.Ripemd.both5 X 3 (Spec.Ripemd.exchange5 0
    (Spec.Ripemd.both5 X 2 (Spec.Ripemd.exchange5 3 (Spec.Ripemd.both5 X 1 (Spec.Ripemd.exchange5 1
      (Spec.Ripemd.both5 X 0 (h.x0, h.x1))))))))))

theorem rmd256_inj (X : Nat → W32) : Injective (rmd256 X) := by
  intro a b h
  have := rmd_both4 X 0 (rmd_ex4 0 (rmd_both4 X 1 (rmd_ex4 1 (rmd_both4 X 2 (rmd_ex4 2 (rmd_both4 X 3 (rmd_ex4 3 h)))))))
  simp only [Prod.mk.injEq] at this
  exact V2.ext this.1 this.2
theorem rmd320_inj (X : Nat → W32) : Injective (rmd320 X) := by
  intro a b h
  have := rmd_both5 X 0 (rmd_ex5 1 (rmd_both5 X 1 (rmd_ex5 3 (rmd_both5 X 2 (rmd_ex5 0 (rmd_both5 X 3 (rmd_ex5 2
    (rmd_both5 X 4 (rmd_ex5 4 h)))))))))
  simp only [Prod.mk.injEq] at this
  exact V2.ext this.1 this.2

/-! ### Tiger -/

theorem tiger_round (t : Nat → Nat → W64) (x : W64) (mul : Nat) (inv : W64) (hm : BitVec.ofNat 64 mul * inv = 1) :
    Injective fun r => Spec.Tiger.round t r x mul := by
  rintro ⟨a, b, c⟩ ⟨a', b', c'⟩ h
  simp only [Spec.Tiger.round, Prod.mk.injEq] at h
  obtain ⟨h0, h1, h2⟩ := h
  rw [h2] at h0 h1
  rw [xor_left_eq h2, sub_left_eq h0, add_left_eq (mul_eq _ inv hm h1)]

theorem tiger_pass (t : Nat → Nat → W64) (x : List W64) (mul : Nat) (inv : W64) (hm : BitVec.ofNat 64 mul * inv = 1) :
    Injective (Spec.Tiger.pass t mul x) :=
  inj_foldl _ fun xi _ => fun a b h => tiger_round t xi mul inv hm (by
    simp only [Spec.Tiger.rot, Prod.mk.injEq] at h
    exact Prod.ext h.2.2 (Prod.ext h.1 h.2.1))

/-- The three passes. -/
def tigerPasses (t : Nat → Nat → W64) (x : List W64) (s : Spec.Tiger.Regs) : Spec.Tiger.Regs :=
  Spec.Tiger.pass t 9 (Spec.Tiger.keySchedule (Spec.Tiger.keySchedule x))
    (Spec.Tiger.pass t 7 (Spec.Tiger.keySchedule x) (Spec.Tiger.pass t 5 x s))

theorem tigerPasses_inj (t : Nat → Nat → W64) (x : List W64) : Injective (tigerPasses t x) := fun _ _ h =>
  tiger_pass t x 5 0xcccccccccccccccd (by decide) (tiger_pass t _ 7 0x6db6db6db6db6db7 (by decide)
    (tiger_pass t _ 9 0x8e38e38e38e38e39 (by decide) h))

end Hashes.Perm
