import Verif.Proof.Perm.Basic
import Verif.Proof.KeccakP
import Verif.Proof.Sponge
import Verif.Spec.Ascon
/- Helpers for C62: Ascon-p and Keccak-p are injective. -/
namespace Hashes.Perm
open Function

/-! ### Ascon -/

theorem ascon_lin (i j : Nat) (hb : ∀ t < 64, (fun y : W64 => y ^^^ Spec.Ascon.ror y i ^^^ Spec.Ascon.ror y j)^[63]
      (BitVec.twoPow 64 t ^^^ Spec.Ascon.ror (BitVec.twoPow 64 t) i ^^^ Spec.Ascon.ror (BitVec.twoPow 64 t) j) =
        BitVec.twoPow 64 t) :
    Injective fun y : W64 => y ^^^ Spec.Ascon.ror y i ^^^ Spec.Ascon.ror y j := by
  have ha : Additive fun y : W64 => y ^^^ Spec.Ascon.ror y i ^^^ Spec.Ascon.ror y j :=
    (additive_id.xor (additive_rotateRight i)).xor (additive_rotateRight j)
  exact ha.inj (ha.iter 63) hb

theorem ascon_l0 : Injective fun y : W64 => y ^^^ Spec.Ascon.ror y 19 ^^^ Spec.Ascon.ror y 28 := ascon_lin 19 28 (by decide +kernel)
theorem ascon_l1 : Injective fun y : W64 => y ^^^ Spec.Ascon.ror y 61 ^^^ Spec.Ascon.ror y 39 := ascon_lin 61 39 (by decide +kernel)
theorem ascon_l2 : Injective fun y : W64 => y ^^^ Spec.Ascon.ror y 1 ^^^ Spec.Ascon.ror y 6 := ascon_lin 1 6 (by decide +kernel)
theorem ascon_l3 : Injective fun y : W64 => y ^^^ Spec.Ascon.ror y 10 ^^^ Spec.Ascon.ror y 17 := ascon_lin 10 17 (by decide +kernel)
theorem ascon_l4 : Injective fun y : W64 => y ^^^ Spec.Ascon.ror y 7 ^^^ Spec.Ascon.ror y 41 := ascon_lin 7 41 (by decide +kernel)

theorem ascon_sbox : ∀ x0 x1 x2 x3 x4 z0 z1 z2 z3 z4 : Bool,
    (x4 && x1 ^^ x3 ^^ x2 && x1 ^^ x2 ^^ x1 && x0 ^^ x1 ^^ x0) = (z4 && z1 ^^ z3 ^^ z2 && z1 ^^ z2 ^^ z1 && z0 ^^ z1 ^^ z0) →
    (x4 ^^ x3 && x2 ^^ x3 && x1 ^^ x3 ^^ x2 && x1 ^^ x2 ^^ x1 ^^ x0) =
      (z4 ^^ z3 && z2 ^^ z3 && z1 ^^ z3 ^^ z2 && z1 ^^ z2 ^^ z1 ^^ z0) →
    (x4 && x3 ^^ x4 ^^ x2 ^^ x1 ^^ true) = (z4 && z3 ^^ z4 ^^ z2 ^^ z1 ^^ true) →
    (x4 && x0 ^^ x4 ^^ x3 && x0 ^^ x3 ^^ x2 ^^ x1 ^^ x0) = (z4 && z0 ^^ z4 ^^ z3 && z0 ^^ z3 ^^ z2 ^^ z1 ^^ z0) →
    (x4 && x1 ^^ x4 ^^ x3 ^^ x1 && x0 ^^ x1) = (z4 && z1 ^^ z4 ^^ z3 ^^ z1 && z0 ^^ z1) →
    x0 = z0 ∧ x1 = z1 ∧ x2 = z2 ∧ x3 = z3 ∧ x4 = z4 := by decide +kernel

theorem ascon_round (c : W64) : Injective fun s => Spec.Ascon.round s c := by
  rintro ⟨x0, x1, x2, x3, x4⟩ ⟨z0, z1, z2, z3, z4⟩ h
  simp only [Spec.Ascon.round, V5.mk.injEq] at h
  obtain ⟨h0, h1, h2, h3, h4⟩ := h
  have h0 := ascon_l0 h0
  have h1 := ascon_l1 h1
  have h2 := ascon_l2 h2
  have h3 := ascon_l3 h3
  have h4 := ascon_l4 h4
  have key : ∀ i < 64, x0.getLsbD i = z0.getLsbD i ∧ x1.getLsbD i = z1.getLsbD i ∧
      (x2 ^^^ c).getLsbD i = (z2 ^^^ c).getLsbD i ∧ x3.getLsbD i = z3.getLsbD i ∧ x4.getLsbD i = z4.getLsbD i := by
    intro i hi
    have g0 := congrArg (fun v : W64 => v.getLsbD i) h0
    have g1 := congrArg (fun v : W64 => v.getLsbD i) h1
    have g2 := congrArg (fun v : W64 => v.getLsbD i) h2
    have g3 := congrArg (fun v : W64 => v.getLsbD i) h3
    have g4 := congrArg (fun v : W64 => v.getLsbD i) h4
    have ho : (0xffffffffffffffff : W64).getLsbD i = true := by
      have : ∀ i < 64, (0xffffffffffffffff : W64).getLsbD i = true := by decide
      exact this i hi
    generalize x2 ^^^ c = u at *
    generalize z2 ^^^ c = v at *
    simp only [BitVec.getLsbD_xor, BitVec.getLsbD_and, ho] at g0 g1 g2 g3 g4
    exact ascon_sbox _ _ _ _ _ _ _ _ _ _ g0 g1 g2 g3 g4
  apply V5.ext
  · exact BitVec.eq_of_getLsbD_eq fun i hi => (key i hi).1
  · exact BitVec.eq_of_getLsbD_eq fun i hi => (key i hi).2.1
  · exact xor_left_eq (BitVec.eq_of_getLsbD_eq fun i hi => (key i hi).2.2.1)
  · exact BitVec.eq_of_getLsbD_eq fun i hi => (key i hi).2.2.2.1
  · exact BitVec.eq_of_getLsbD_eq fun i hi => (key i hi).2.2.2.2

theorem ascon_p12 : Injective Spec.Ascon.p12 := inj_foldl _ fun _ _ => ascon_round _

/-! ### Keccak -/
open Spec

theorem rotateLeft_twice (x : W64) (r : Nat) : (x.rotateLeft r).rotateLeft r = x.rotateLeft (2 * r) := by
  apply BitVec.eq_of_getLsbD_eq
  intro i hi
  simp only [BitVec.getLsbD_rotateLeft]
  have h1 : r % 64 < 64 := Nat.mod_lt _ (by decide)
  rw [show 2 * r % 64 = 2 * (r % 64) % 64 by omega]
  generalize r % 64 = k at *
  rcases Nat.lt_or_ge k 32 with hk | hk
  · rw [Nat.mod_eq_of_lt (by omega : 2 * k < 64)]
    by_cases c1 : i < k
    · have c2 : i < 2 * k := by omega
      have c3 : ¬ (64 - k + i < k) := by omega
      have c4 : 64 - k + i < 64 := by omega
      simp only [c1, c2, c3, c4, decide_true, decide_false, cond_true, cond_false, Bool.true_and]
      congr 1; omega
    · by_cases c2 : i < 2 * k
      · have c3 : i - k < k := by omega
        simp only [c1, c2, c3, hi, decide_true, decide_false, cond_true, cond_false, Bool.true_and]
        congr 1; omega
      · have c3 : ¬ (i - k < k) := by omega
        have c4 : i - k < 64 := by omega
        simp only [c1, c2, c3, c4, hi, decide_true, decide_false, cond_false, Bool.true_and]
        congr 1; omega
  · rw [show 2 * k % 64 = 2 * k - 64 by omega]
    by_cases c1 : i < k
    · by_cases c2 : i < 2 * k - 64
      · have c3 : 64 - k + i < k := by omega
        simp only [c1, c2, c3, decide_true, cond_true]
        congr 1; omega
      · have c3 : ¬ (64 - k + i < k) ∨ 64 - k + i < k := by omega
        have c4 : 64 - k + i < 64 := by omega
        rcases c3 with c3 | c3
        · simp only [c1, c2, c3, c4, hi, decide_true, decide_false, cond_true, cond_false, Bool.true_and]
          congr 1; omega
        · exfalso; omega
    · have c2 : ¬ (i < 2 * k - 64) := by omega
      have c3 : i - k < k := by omega
      simp only [c1, c2, c3, hi, decide_true, decide_false, cond_true, cond_false, Bool.true_and]
      congr 1; omega

/-- Doubling step for the kernel of the column-parity map. -/
theorem parity_double {D : Nat → W64} (hD : ∀ x, D (x + 5) = D x) (a r : Nat)
    (h : ∀ x, D x = D (x + 4 * a) ^^^ (D (x + a)).rotateLeft r) :
    ∀ x, D x = D (x + 4 * (2 * a)) ^^^ (D (x + 2 * a)).rotateLeft (2 * r) := by
  intro x
  have p5 : ∀ k x, D (x + 5 * k) = D x := by
    intro k
    induction k with
    | zero => intro x; rfl
    | succ k ih => intro x; rw [show x + 5 * (k + 1) = (x + 5 * k) + 5 by omega, hD, ih]
  have h1 := h (x + 4 * a)
  have h2 := h (x + a)
  rw [show x + 4 * a + a = x + 5 * a by omega, p5] at h1
  rw [show x + a + 4 * a = x + 5 * a by omega, p5] at h2
  have h0 := h x
  rw [h1, h2, show ∀ u v : W64, (u ^^^ v).rotateLeft r = u.rotateLeft r ^^^ v.rotateLeft r from additive_rotateLeft r] at h0
  rw [show x + 4 * a + 4 * a = x + 4 * (2 * a) by omega, show x + a + a = x + 2 * a by omega] at h0
  have hrr : ((D (x + 2 * a)).rotateLeft r).rotateLeft r = (D (x + 2 * a)).rotateLeft (2 * r) := by
    exact rotateLeft_twice _ r
  simp only [hrr] at h0
  rw [h0]
  apply BitVec.eq_of_getLsbD_eq
  intro i _
  simp only [BitVec.getLsbD_xor]
  cases (D (x + 4 * (2 * a))).getLsbD i <;> cases ((D x).rotateLeft r).getLsbD i <;> simp

theorem parity_kernel {D : Nat → W64} (hD : ∀ x, D (x + 5) = D x)
    (h : ∀ x, D x = D (x + 4) ^^^ (D (x + 1)).rotateLeft 1) : ∀ x, D x = 0 := by
  have h1 := parity_double hD 1 1 h
  have h2 := parity_double hD 2 2 h1
  have h3 := parity_double hD 4 4 h2
  have h4 := parity_double hD 8 8 h3
  have h5 := parity_double hD 16 16 h4
  have h6 := parity_double hD 32 32 h5
  have p5 : ∀ k x, D (x + 5 * k) = D x := by
    intro k
    induction k with
    | zero => intro x; rfl
    | succ k ih => intro x; rw [show x + 5 * (k + 1) = (x + 5 * k) + 5 by omega, hD, ih]
  have hs : ∀ x, D x = D (x + 1) ^^^ D (x + 4) := by
    intro x
    have := h6 x
    simp only [Nat.reduceMul] at this
    have hr : (D (x + 64)).rotateLeft 64 = D (x + 64) := by
      apply BitVec.eq_of_getLsbD_eq
      intro i hi
      simp [hi]
    rw [hr, show x + 256 = x + 1 + 5 * 51 by omega, p5, show x + 64 = x + 4 + 5 * 12 by omega, p5] at this
    exact this
  have e0 := hs 0
  have e1 := hs 1
  have e2 := hs 2
  have e3 := hs 3
  have e4 := hs 4
  simp only [Nat.reduceAdd] at e0 e1 e2 e3 e4
  rw [show D 5 = D 0 from hD 0] at e1 e4
  rw [show D 6 = D 1 from hD 1] at e2
  rw [show D 7 = D 2 from hD 2] at e3
  rw [show D 8 = D 3 from hD 3] at e4
  have bit : ∀ d0 d1 d2 d3 d4 : Bool, d0 = (d1 ^^ d4) → d1 = (d2 ^^ d0) → d2 = (d3 ^^ d1) → d3 = (d4 ^^ d2) → d4 = (d0 ^^ d3) →
      d0 = false ∧ d1 = false ∧ d2 = false ∧ d3 = false ∧ d4 = false := by decide
  have all : ∀ i, (D 0).getLsbD i = false ∧ (D 1).getLsbD i = false ∧ (D 2).getLsbD i = false ∧ (D 3).getLsbD i = false ∧
      (D 4).getLsbD i = false := by
    intro i
    apply bit
    · rw [← BitVec.getLsbD_xor, ← e0]
    · rw [← BitVec.getLsbD_xor, ← e1]
    · rw [← BitVec.getLsbD_xor, ← e2]
    · rw [← BitVec.getLsbD_xor, ← e3]
    · rw [← BitVec.getLsbD_xor, ← e4]
  intro x
  have hx : D x = D (x % 5) := by
    conv_lhs => rw [show x = x % 5 + 5 * (x / 5) by omega]
    rw [p5]
  rw [hx]
  have : x % 5 < 5 := Nat.mod_lt _ (by decide)
  apply BitVec.eq_of_getLsbD_eq
  intro i _
  have := all i
  rw [show (0 : W64).getLsbD i = false from BitVec.getLsbD_zero]
  match x % 5, ‹x % 5 < 5› with
  | 0, _ => exact this.1
  | 1, _ => exact this.2.1
  | 2, _ => exact this.2.2.1
  | 3, _ => exact this.2.2.2.1
  | 4, _ => exact this.2.2.2.2

theorem lanes_ext {A B : List W64} (ha : A.length = 25) (hb : B.length = 25)
    (h : ∀ x < 5, ∀ y < 5, Keccak.lane A x y = Keccak.lane B x y) : A = B := by
  apply List.ext_getElem (by omega)
  intro i h1 h2
  have := h (i % 5) (Nat.mod_lt _ (by decide)) (i / 5) (by omega)
  rw [Sha3.P1600.lane_at A (by omega), Sha3.P1600.lane_at B (by omega)] at this
  simpa [List.getD, h1, h2] using this

theorem lane_array (g : Nat → Nat → W64) {x y : Nat} (hx : x < 5) (hy : y < 5) : Keccak.lane (Keccak.array g) x y = g x y := by
  rw [Keccak.lane, Keccak.array, Nat.mod_eq_of_lt hx, Nat.mod_eq_of_lt hy]
  have h : 5 * y + x < 25 := by omega
  simp only [List.getD_eq_getElem?_getD, List.getElem?_map, List.getElem?_range h, Option.map_some, Option.getD_some]
  rw [show (5 * y + x) % 5 = x by omega, show (5 * y + x) / 5 = y by omega]

/-- Column parity. -/
def col (A : List W64) (x : Nat) : W64 :=
  Keccak.lane A x 0 ^^^ Keccak.lane A x 1 ^^^ Keccak.lane A x 2 ^^^ Keccak.lane A x 3 ^^^ Keccak.lane A x 4

theorem lane_mod (A : List W64) (x y : Nat) : Keccak.lane A (x + 5) y = Keccak.lane A x y := by
  simp only [Keccak.lane, Nat.add_mod_right]
theorem lane_modx (A : List W64) (x y : Nat) : Keccak.lane A x y = Keccak.lane A (x % 5) y := by
  simp only [Keccak.lane, Nat.mod_mod]

theorem lane_theta (A : List W64) {x y : Nat} (hx : x < 5) (hy : y < 5) :
    Keccak.lane (Keccak.theta A) x y = Keccak.lane A x y ^^^ (col A (x + 4) ^^^ (col A (x + 1)).rotateLeft 1) := by
  rw [Keccak.theta, lane_array _ hx hy]
  rfl

theorem theta_inj {A B : List W64} (ha : A.length = 25) (hb : B.length = 25) (h : Keccak.theta A = Keccak.theta B) : A = B := by
  have hcol : ∀ (A : List W64) x, col (Keccak.theta A) x = col A x ^^^ (col A (x + 4) ^^^ (col A (x + 1)).rotateLeft 1) := by
    intro A x
    have hx : x % 5 < 5 := Nat.mod_lt _ (by decide)
    have p : ∀ z, col A z = col A (z % 5) := fun z => by
      simp only [col]
      rw [lane_modx A z 0, lane_modx A z 1, lane_modx A z 2, lane_modx A z 3, lane_modx A z 4]
    have q : ∀ z, col A ((x % 5) + z) = col A (x + z) := fun z => by
      rw [p, p (x + z), Nat.mod_add_mod]
    have hl : ∀ y < 5, Keccak.lane (Keccak.theta A) x y =
        Keccak.lane A (x % 5) y ^^^ (col A (x + 4) ^^^ (col A (x + 1)).rotateLeft 1) := fun y hy => by
      rw [lane_modx, lane_theta A hx hy, q, q]
    rw [p x, col, hl 0 (by decide), hl 1 (by decide), hl 2 (by decide), hl 3 (by decide), hl 4 (by decide)]
    generalize col A (x + 4) ^^^ (col A (x + 1)).rotateLeft 1 = d
    simp only [col]
    apply BitVec.eq_of_getLsbD_eq
    intro i _
    simp only [BitVec.getLsbD_xor]
    cases d.getLsbD i <;> simp
  have h0 : ∀ x, col A x ^^^ col B x = 0 := by
    apply parity_kernel (D := fun x => col A x ^^^ col B x)
    · intro x
      simp only [col, lane_mod]
    · intro x
      have e : col (Keccak.theta A) x = col (Keccak.theta B) x := by rw [h]
      rw [hcol, hcol] at e
      simp only [additive_rotateLeft 1 (col A (x + 1)) (col B (x + 1))]
      apply BitVec.eq_of_getLsbD_eq
      intro i _
      have := congrArg (fun v : W64 => v.getLsbD i) e
      simp only [BitVec.getLsbD_xor] at this ⊢
      revert this
      generalize (col A x).getLsbD i = a
      generalize (col B x).getLsbD i = b
      generalize (col A (x + 4)).getLsbD i = c
      generalize (col B (x + 4)).getLsbD i = d
      generalize ((col A (x + 1)).rotateLeft 1).getLsbD i = e
      generalize ((col B (x + 1)).rotateLeft 1).getLsbD i = f
      revert a b c d e f
      decide
  have hc : ∀ x, col A x = col B x := fun x => BitVec.xor_eq_zero_iff.1 (h0 x)
  apply lanes_ext ha hb
  intro x hx y hy
  have e : Keccak.lane (Keccak.theta A) x y = Keccak.lane (Keccak.theta B) x y := by rw [h]
  rw [lane_theta A hx hy, lane_theta B hx hy, hc, hc] at e
  exact xor_left_eq e

theorem rho_inj {A B : List W64} (ha : A.length = 25) (hb : B.length = 25) (h : Keccak.rho A = Keccak.rho B) : A = B := by
  apply lanes_ext ha hb
  intro x hx y hy
  have e : Keccak.lane (Keccak.rho A) x y = Keccak.lane (Keccak.rho B) x y := by rw [h]
  rw [Keccak.rho, Keccak.rho, lane_array _ hx hy, lane_array _ hx hy] at e
  exact rotateLeft_eq e

theorem pi_inj {A B : List W64} (ha : A.length = 25) (hb : B.length = 25) (h : Keccak.pi A = Keccak.pi B) : A = B := by
  apply lanes_ext ha hb
  intro x hx y hy
  -- the lane `(x, y)` moves to `(y, 2 (x - y))`
  have e : Keccak.lane (Keccak.pi A) y ((2 * (x + 4 * y)) % 5) = Keccak.lane (Keccak.pi B) y ((2 * (x + 4 * y)) % 5) := by rw [h]
  rw [Keccak.pi, Keccak.pi, lane_array _ hy (Nat.mod_lt _ (by decide)), lane_array _ hy (Nat.mod_lt _ (by decide))] at e
  rw [lane_modx A, lane_modx B, show (y + 3 * (2 * (x + 4 * y) % 5)) % 5 = x by omega] at e
  exact e

theorem chi_bits : ∀ a0 a1 a2 a3 a4 b0 b1 b2 b3 b4 : Bool,
    (a0 ^^ (!a1 && a2)) = (b0 ^^ (!b1 && b2)) → (a1 ^^ (!a2 && a3)) = (b1 ^^ (!b2 && b3)) →
    (a2 ^^ (!a3 && a4)) = (b2 ^^ (!b3 && b4)) → (a3 ^^ (!a4 && a0)) = (b3 ^^ (!b4 && b0)) →
    (a4 ^^ (!a0 && a1)) = (b4 ^^ (!b0 && b1)) → a0 = b0 ∧ a1 = b1 ∧ a2 = b2 ∧ a3 = b3 ∧ a4 = b4 := by decide +kernel

theorem chi_inj {A B : List W64} (ha : A.length = 25) (hb : B.length = 25) (h : Keccak.chi A = Keccak.chi B) : A = B := by
  apply lanes_ext ha hb
  intro x hx y hy
  have e : ∀ x < 5, Keccak.lane A x y ^^^ (~~~(Keccak.lane A (x + 1) y) &&& Keccak.lane A (x + 2) y) =
      Keccak.lane B x y ^^^ (~~~(Keccak.lane B (x + 1) y) &&& Keccak.lane B (x + 2) y) := by
    intro x hx
    have : Keccak.lane (Keccak.chi A) x y = Keccak.lane (Keccak.chi B) x y := by rw [h]
    rwa [Keccak.chi, Keccak.chi, lane_array _ hx hy, lane_array _ hx hy] at this
  have e0 := e 0 (by decide)
  have e1 := e 1 (by decide)
  have e2 := e 2 (by decide)
  have e3 := e 3 (by decide)
  have e4 := e 4 (by decide)
  simp only [Nat.reduceAdd] at e0 e1 e2 e3 e4
  rw [show ∀ A, Keccak.lane A 5 y = Keccak.lane A 0 y from fun A => lane_mod A 0 y] at e3 e4
  rw [show ∀ A, Keccak.lane A 5 y = Keccak.lane A 0 y from fun A => lane_mod A 0 y] at e3 e4
  rw [show ∀ A, Keccak.lane A 6 y = Keccak.lane A 1 y from fun A => lane_mod A 1 y] at e4
  rw [show ∀ A, Keccak.lane A 6 y = Keccak.lane A 1 y from fun A => lane_mod A 1 y] at e4
  apply BitVec.eq_of_getLsbD_eq
  intro i hi
  have g0 := congrArg (fun v : W64 => v.getLsbD i) e0
  have g1 := congrArg (fun v : W64 => v.getLsbD i) e1
  have g2 := congrArg (fun v : W64 => v.getLsbD i) e2
  have g3 := congrArg (fun v : W64 => v.getLsbD i) e3
  have g4 := congrArg (fun v : W64 => v.getLsbD i) e4
  simp only [BitVec.getLsbD_xor, BitVec.getLsbD_and, BitVec.getLsbD_not, hi, decide_true, Bool.true_and] at g0 g1 g2 g3 g4
  have := chi_bits _ _ _ _ _ _ _ _ _ _ g0 g1 g2 g3 g4
  match x, hx with
  | 0, _ => exact this.1
  | 1, _ => exact this.2.1
  | 2, _ => exact this.2.2.1
  | 3, _ => exact this.2.2.2.1
  | 4, _ => exact this.2.2.2.2

theorem iota_inj (ir : Nat) {A B : List W64} (ha : A.length = 25) (hb : B.length = 25) (h : Keccak.iota ir A = Keccak.iota ir B) : A = B := by
  apply lanes_ext ha hb
  intro x hx y hy
  have e : Keccak.lane (Keccak.iota ir A) x y = Keccak.lane (Keccak.iota ir B) x y := by rw [h]
  rw [Keccak.iota, Keccak.iota, lane_array _ hx hy, lane_array _ hx hy] at e
  split at e
  · rename_i hxy
    rw [hxy.1, hxy.2]
    exact xor_left_eq e
  · exact e

theorem length_array (g : Nat → Nat → W64) : (Keccak.array g).length = 25 := by simp [Keccak.array]

theorem len_theta (A : List W64) : (Keccak.theta A).length = 25 := by simp [Keccak.theta, Keccak.array]
theorem len_round (ir : Nat) (A : List W64) : (Keccak.round ir A).length = 25 := by simp [Keccak.round, Keccak.iota, Keccak.array]

theorem round_inj (ir : Nat) {A B : List W64} (ha : A.length = 25) (hb : B.length = 25) (h : Keccak.round ir A = Keccak.round ir B) :
    A = B :=
  theta_inj ha hb (rho_inj (len_theta A) (len_theta B) (pi_inj (length_array _) (length_array _)
    (chi_inj (length_array _) (length_array _) (iota_inj ir (length_array _) (length_array _) h))))

theorem keccakP_inj (nr : Nat) {A B : List W64} (ha : A.length = 25) (hb : B.length = 25)
    (h : Keccak.keccakP nr A = Keccak.keccakP nr B) : A = B := by
  rw [Keccak.keccakP, Keccak.keccakP] at h
  revert h
  generalize List.range nr = l
  induction l generalizing A B with
  | nil => exact fun h => h
  | cons i l ih =>
    intro h
    exact round_inj _ ha hb (ih (len_round _ A) (len_round _ B) h)

end Hashes.Perm
